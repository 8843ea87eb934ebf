import Verif.Model.Say
import Verif.Proof.GoMap
import Verif.Proof.GoStr

/-! # C96: what a client says is passed on as it was said -/

namespace Verif.Props
open Verif.Model Verif.Spec Verif.Proof

/-! ## Specification -/

/-- The tag is one that clients may set: it starts with `+`. -/
def ClientTag (k : Str) : Prop := k.head? = some 43

/-- Everyone on the bouncer is meant: `$` and the name of the bouncer, or `$*` if the client has no network. -/
def SayToAll (env : SayEnv) (name : Str) : Prop := name = b!"$" ++ env.hostname ∨ (name = b!"$*" ∧ env.bound = false)

/-- The client, which has no network, means itself. -/
def SayToSelf (env : SayEnv) (name : Str) : Prop :=
  ¬ SayToAll env name ∧ env.bound = false ∧ casemap env.cm name = casemap env.cm env.self.name

/-- The service of the bouncer is meant. -/
def SayToService (env : SayEnv) (name : Str) : Prop :=
  ¬ SayToAll env name ∧ ¬ SayToSelf env name ∧ casemap env.cm name = casemap env.cm b!"BouncerServ"

/-- Someone on the network is meant. -/
def SayToNet (env : SayEnv) (name : Str) : Prop :=
  ¬ SayToAll env name ∧ ¬ SayToSelf env name ∧ ¬ SayToService env name

instance (env : SayEnv) (name : Str) : Decidable (SayToAll env name) := by unfold SayToAll; infer_instance
instance (env : SayEnv) (name : Str) : Decidable (SayToSelf env name) := by unfold SayToSelf; infer_instance
instance (env : SayEnv) (name : Str) : Decidable (SayToService env name) := by unfold SayToService; infer_instance
instance (env : SayEnv) (name : Str) : Decidable (SayToNet env name) := by unfold SayToNet; infer_instance

/-- The network the client is connected to, if the bouncer has a connection to it. -/
def SayConnected (env : SayEnv) (uc : SayConn) : Prop := env.bound = true ∧ env.conn = some uc

/-- This target cannot be served: not everyone may talk to everyone, and there must be a connection. -/
def SayFails (env : SayEnv) (name : Str) : Prop :=
  (SayToAll env name ∧ env.admin = false) ∨ (SayToNet env name ∧ (env.bound = false ∨ env.conn = none))

instance (env : SayEnv) (name : Str) : Decidable (SayFails env name) := by unfold SayFails; infer_instance

/-- The targets before the first one that cannot be served. -/
def sayServed (env : SayEnv) (targets : List Str) : List Str := targets.takeWhile (fun n => decide (¬ SayFails env n))

/-- The parameters of the message to one target: those of the command, with the target in the place of the list. -/
def sayParamsFor (msg : TMsg) (name : Str) : List Str :=
  name :: (msg.params.take (if msg.command = b!"TAGMSG" then 1 else 2)).drop 1

/-- A command with this list of targets was accepted, and this is a state of the bouncer afterwards, whatever the speed
of the goroutine that writes to the server. -/
def SayReaches (env : SayEnv) (nextLabel : Nat) (msg : TMsg) (targets : List Str) (st : SaySys) : Prop :=
  msg.params.headD [] = joinStr b!"," targets ∧ targets ≠ [] ∧ (∀ t ∈ targets, 44 ∉ t) ∧
  ∃ st0 ops, sayStart nextLabel msg = some st0 ∧ sayRun env st0 ops = some st

/-- The command was handled, and what is for the server has been written. -/
def SayFinished (st : SaySys) : Prop := st.pending = [] ∧ st.queue = [] ∧ st.writing = none

/-! ## The invariant -/

private theorem service_cm (cm : CaseMapping) : casemap cm b!"BouncerServ" = b!"bouncerserv" := by
  cases cm <;> decide

private def connOf (env : SayEnv) : Option SayConn := if env.bound then env.conn else none

private theorem connOf_iff (env : SayEnv) (uc : SayConn) : connOf env = some uc ↔ SayConnected env uc := by
  unfold connOf SayConnected
  cases env.bound <;> simp

private theorem connOf_none (env : SayEnv) : connOf env = none ↔ env.bound = false ∨ env.conn = none := by
  unfold connOf
  cases env.bound <;> simp

/-- A message without its tags. -/
private def bareMsg (m : TMsg) : TMsg := { m with tags := [] }

private def bareQ (q : SayQueued) : TMsg := ⟨[], none, q.command, q.params⟩

private def bareOut : SayOut → SayOut
  | .broadcast m => .broadcast (bareMsg m)
  | .toClient m => .toClient (bareMsg m)
  | .produced t m => .produced t (bareMsg m)
  | o => o

private def bareUp (msg : TMsg) (name : Str) : TMsg := ⟨[], none, msg.command, sayParams msg name⟩

private def errOut (env : SayEnv) (name : Str) : SayOut :=
  if SayToAll env name then .notAllowed name else .notConnected

private def outsFor (env : SayEnv) (msg : TMsg) (name : Str) : List SayOut :=
  if SayToAll env name then [.broadcast ⟨[], some servicePrefix, msg.command, sayParams msg name⟩]
  else if SayToSelf env name then [.toClient ⟨[], some env.self, msg.command, sayParams msg name⟩]
  else if SayToService env name then
    (if env.echo then [.toClient ⟨[], some env.self, msg.command, sayParams msg name⟩] else []) ++
      (if msg.command = b!"PRIVMSG" then [.service (sayText msg)] else [])
  else match connOf env with
    | none => []
    | some uc =>
      (if msg.command = b!"PRIVMSG" ∧ casemap uc.cm name = b!"nickserv" then [.nickServ (sayText msg)] else []) ++
      (if uc.caps.echoMessage = false then [.produced name ⟨[], some uc.self, msg.command, sayParams msg name⟩] else []) ++
      [.active name]

/-- A tag that is not the client's own was set by the bouncer: the label. -/
private def LabelTag (env : SayEnv) (k v : Str) : Prop :=
  k = b!"label" ∧ (∃ uc, SayConnected env uc ∧ uc.caps.labeledResponse = true) ∧ ∃ n, v = labelOf env.id n

private def TagsOk (msg : TMsg) (extra : Str → Str → Prop) (tags : GoMap Str Str) : Prop :=
  (∀ k, ClientTag k → GoMap.get tags k = GoMap.get msg.tags k) ∧
  ∀ k v, GoMap.get tags k = some v → ¬ ClientTag k → extra k v

private def OutTags (env : SayEnv) (k v : Str) : Prop :=
  LabelTag env k v ∨ (k = b!"time" ∧ ∃ i, v = env.now i)

private def EchoTags (env : SayEnv) (k v : Str) : Prop :=
  OutTags env k v ∨ (k = b!"account" ∧ v ≠ [] ∧ ∃ uc, SayConnected env uc ∧ v = uc.account)

private def OutOk (env : SayEnv) (msg : TMsg) : SayOut → Prop
  | .broadcast m => TagsOk msg (OutTags env) m.tags
  | .toClient m => TagsOk msg (OutTags env) m.tags ∨ (env.bound = false ∧ m.tags = msg.tags)
  | .produced _ m => TagsOk msg (EchoTags env) m.tags
  | _ => True

private def WireTags (env : SayEnv) (msg : TMsg) (tags : GoMap Str Str) : Prop :=
  ∃ uc, SayConnected env uc ∧ (uc.caps.messageTags = false → tags = []) ∧
    (uc.caps.messageTags = true → TagsOk msg (LabelTag env) tags ∧
      (uc.caps.labeledResponse = true → ∃ n, GoMap.get tags b!"label" = some (labelOf env.id n)))

private structure SayInv (env : SayEnv) (msg : TMsg) (targets : List Str) (st : SaySys) (done : List Str)
    (failed : Option Str) : Prop where
  msg_eq : st.msg = msg
  ok : ∀ n ∈ done, ¬ SayFails env n
  rest : match failed with
    | none => targets = done ++ st.pending
    | some n => SayFails env n ∧ st.pending = [] ∧ ∃ r, targets = done ++ n :: r
  ups : st.wire.map bareMsg ++ st.writing.toList.map bareMsg ++ st.queue.map bareQ =
    (done.filter (fun n => decide (SayToNet env n))).map (bareUp msg)
  outs : st.out.map bareOut = done.flatMap (outsFor env msg) ++ failed.toList.map (errOut env)
  tags : TagsOk msg (LabelTag env) st.tags
  queueT : ∀ q ∈ st.queue, ∃ uc, SayConnected env uc ∧ q.tagged = uc.caps.messageTags ∧
    (uc.caps.labeledResponse = true → ∃ n, GoMap.get st.tags b!"label" = some (labelOf env.id n))
  writeT : ∀ m, st.writing = some m → WireTags env msg m.tags
  wireT : ∀ m ∈ st.wire, WireTags env msg m.tags
  outT : ∀ o ∈ st.out, OutOk env msg o

private theorem tagsOk_set {msg : TMsg} {e1 e2 : Str → Str → Prop} {tags : GoMap Str Str} {k v : Str}
    (h : TagsOk msg e1 tags) (hk : ¬ ClientTag k) (hi : ∀ a b, e1 a b → e2 a b) (hv : e2 k v) :
    TagsOk msg e2 (GoMap.set tags k v) := by
  refine ⟨?_, ?_⟩
  · intro a ha
    rw [mget_mset, if_neg (fun (e : k = a) => hk (by rw [e]; exact ha))]
    exact h.1 a ha
  · intro a b hg ha
    rw [mget_mset] at hg
    by_cases e : k = a
    · rw [if_pos e] at hg
      cases hg
      exact e ▸ hv
    · rw [if_neg e] at hg
      exact hi a b (h.2 a b hg ha)

private theorem tagsOk_mono {msg : TMsg} {e1 e2 : Str → Str → Prop} {tags : GoMap Str Str}
    (h : TagsOk msg e1 tags) (hi : ∀ a b, e1 a b → e2 a b) : TagsOk msg e2 tags :=
  ⟨h.1, fun a b hg ha => hi a b (h.2 a b hg ha)⟩

private theorem copy_get (tags : GoMap Str Str) (k : Str) :
    GoMap.get (copyClientTags tags) k = if hasPrefix b!"+" k then GoMap.get tags k else none := by
  induction tags with
  | nil => simp [copyClientTags, GoMap.get]
  | cons p t ih =>
    obtain ⟨a, v⟩ := p
    unfold copyClientTags at ih ⊢
    by_cases ha : hasPrefix b!"+" a = true
    · rw [List.filter_cons_of_pos (by exact ha)]
      simp only [GoMap.get]
      rw [ih]
      by_cases e : a = k
      · subst e; simp [ha]
      · simp [e]
    · rw [List.filter_cons_of_neg (by exact ha), ih]
      simp only [GoMap.get]
      by_cases e : a = k
      · subst e; simp [ha]
      · simp [e]

private theorem client_iff (k : Str) : hasPrefix b!"+" k = true ↔ ClientTag k := by
  unfold ClientTag
  cases k with
  | nil => simp
  | cons c k => simp [eq_comm]

private theorem copy_ok (env : SayEnv) (msg : TMsg) : TagsOk msg (LabelTag env) (copyClientTags msg.tags) := by
  refine ⟨?_, ?_⟩
  · intro k hk
    rw [copy_get, if_pos ((client_iff k).2 hk)]
  · intro k v hg hk
    rw [copy_get, if_neg (fun e => hk ((client_iff k).1 e))] at hg
    cases hg

private theorem start_inv {env : SayEnv} {n : Nat} {msg : TMsg} {targets : List Str} {st0 : SaySys}
    (hj : msg.params.headD [] = joinStr b!"," targets) (hne : targets ≠ []) (hc : ∀ t ∈ targets, 44 ∉ t)
    (h : sayStart n msg = some st0) : SayInv env msg targets st0 [] none := by
  unfold sayStart at h
  by_cases hlen : msg.params.length < (if msg.command ≠ b!"TAGMSG" then 2 else 1)
  · rw [if_pos hlen] at h; cases h
  · rw [if_neg hlen] at h
    cases h
    exact {
      msg_eq := rfl
      ok := by simp
      rest := by
        dsimp only
        rw [hj, splitByte_joinStr 44 targets hne hc]
        rfl
      ups := rfl
      outs := rfl
      tags := copy_ok env msg
      queueT := by simp
      writeT := by simp
      wireT := by simp
      outT := by simp }

private theorem notClient_label : ¬ ClientTag b!"label" := by unfold ClientTag; decide
private theorem notClient_time : ¬ ClientTag b!"time" := by unfold ClientTag; decide
private theorem notClient_account : ¬ ClientTag b!"account" := by unfold ClientTag; decide

/-- The loop comes to the next target. -/
private theorem target_inv {env : SayEnv} {msg : TMsg} {targets : List Str} {st : SaySys} {done : List Str} {name : Str}
    {rest : List Str} (h : SayInv env msg targets st done none) (hp : st.pending = name :: rest) :
    ∃ failed', SayInv env msg targets (sayTarget env { st with pending := rest } name)
      (if SayFails env name then done else done ++ [name]) failed' := by
  have hT : targets = done ++ name :: rest := by have := h.rest; dsimp only at this; rw [this, hp]
  have hout := h.outs
  simp only [Option.toList_none, List.map_nil, List.append_nil] at hout
  have hmsg := h.msg_eq
  unfold sayTarget
  dsimp only
  by_cases hall : name = b!"$" ++ env.hostname ∨ (name = b!"$*" ∧ env.bound = false)
  · have hall' : SayToAll env name := hall
    rw [if_pos hall]
    by_cases hadm : env.admin = false
    · have hf : SayFails env name := .inl ⟨hall', hadm⟩
      rw [if_pos hadm, if_pos hf]
      refine ⟨some name, { h with rest := ⟨hf, rfl, rest, hT⟩, outs := ?_, outT := ?_ }⟩
      · simp only [List.map_append, hout, List.map_cons, List.map_nil, Option.toList_some, bareOut, errOut]
        rw [if_pos hall']
      · intro o ho
        rcases List.mem_append.1 ho with ho | ho
        · exact h.outT o ho
        · simp only [List.mem_singleton] at ho; subst ho; trivial
    · have hf : ¬ SayFails env name := by
        rintro (⟨_, e⟩ | ⟨e, _⟩)
        · exact hadm e
        · exact e.1 hall'
      rw [if_neg hadm, if_neg hf]
      refine ⟨none, { h with ok := ?_, rest := ?_, ups := ?_, outs := ?_, outT := ?_ }⟩
      · intro n hn
        rcases List.mem_append.1 hn with hn | hn
        · exact h.ok n hn
        · simp only [List.mem_singleton] at hn; exact hn ▸ hf
      · dsimp only; rw [hT]; simp
      · dsimp only
        rw [h.ups, List.filter_append, List.filter_cons_of_neg (by simp [SayToNet, hall'])]
        simp
      · simp only [List.map_append, hout, List.map_cons, List.map_nil, bareOut, bareMsg, List.flatMap_append,
          List.flatMap_cons, List.flatMap_nil, List.append_nil, Option.toList_none, outsFor, hmsg]
        rw [if_pos hall']
      · intro o ho
        rcases List.mem_append.1 ho with ho | ho
        · exact h.outT o ho
        · simp only [List.mem_singleton] at ho; subst ho
          exact tagsOk_set h.tags notClient_time (fun _ _ e => .inl e) (.inr ⟨rfl, _, rfl⟩)
  · have hall' : ¬ SayToAll env name := hall
    rw [if_neg hall]
    by_cases hself : env.bound = false ∧ casemap env.cm name = casemap env.cm env.self.name
    · have hself' : SayToSelf env name := ⟨hall', hself⟩
      have hf : ¬ SayFails env name := by
        rintro (⟨e, _⟩ | ⟨e, _⟩)
        · exact hall' e
        · exact e.2.1 hself'
      rw [if_pos hself, if_neg hf]
      refine ⟨none, { h with ok := ?_, rest := ?_, ups := ?_, outs := ?_, outT := ?_ }⟩
      · intro n hn
        rcases List.mem_append.1 hn with hn | hn
        · exact h.ok n hn
        · simp only [List.mem_singleton] at hn; exact hn ▸ hf
      · dsimp only; rw [hT]; simp
      · dsimp only
        rw [h.ups, List.filter_append, List.filter_cons_of_neg (by simp [SayToNet, hself'])]
        simp
      · simp only [List.map_append, hout, List.map_cons, List.map_nil, bareOut, bareMsg, List.flatMap_append,
          List.flatMap_cons, List.flatMap_nil, List.append_nil, Option.toList_none, outsFor, hmsg]
        rw [if_neg hall', if_pos hself']
      · intro o ho
        rcases List.mem_append.1 ho with ho | ho
        · exact h.outT o ho
        · simp only [List.mem_singleton] at ho; subst ho
          exact .inr ⟨hself.1, by dsimp only; rw [hmsg]⟩
    · have hself' : ¬ SayToSelf env name := fun e => hself e.2
      rw [if_neg hself]
      by_cases hsrv : casemap env.cm name = b!"bouncerserv"
      · have hsrv' : SayToService env name := ⟨hall', hself', by rw [hsrv, service_cm]⟩
        have hf : ¬ SayFails env name := by
          rintro (⟨e, _⟩ | ⟨e, _⟩)
          · exact hall' e
          · exact e.2.2 hsrv'
        rw [if_pos hsrv, if_neg hf]
        refine ⟨none, { h with ok := ?_, rest := ?_, ups := ?_, outs := ?_, outT := ?_ }⟩
        · intro n hn
          rcases List.mem_append.1 hn with hn | hn
          · exact h.ok n hn
          · simp only [List.mem_singleton] at hn; exact hn ▸ hf
        · dsimp only; rw [hT]; simp
        · dsimp only
          rw [h.ups, List.filter_append, List.filter_cons_of_neg (by simp [SayToNet, hsrv'])]
          simp
        · simp only [List.map_append, hout, List.map_nil, List.flatMap_append,
            List.flatMap_cons, List.flatMap_nil, List.append_nil, Option.toList_none, outsFor, hmsg, List.append_assoc]
          rw [if_neg hall', if_neg hself', if_pos hsrv']
          congr 1
          split <;> split <;> rfl
        · intro o ho
          rw [List.append_assoc] at ho
          rcases List.mem_append.1 ho with ho | ho
          · exact h.outT o ho
          · rcases List.mem_append.1 ho with ho | ho
            · split at ho
              · simp only [List.mem_singleton] at ho; subst ho
                exact .inl (tagsOk_set h.tags notClient_time (fun _ _ e => .inl e) (.inr ⟨rfl, _, rfl⟩))
              · cases ho
            · split at ho
              · simp only [List.mem_singleton] at ho; subst ho; trivial
              · cases ho
      · have hsrv' : ¬ SayToService env name := fun e => hsrv (by rw [e.2.2, service_cm])
        have hnet : SayToNet env name := ⟨hall', hself', hsrv'⟩
        rw [if_neg hsrv]
        have hcc : (if env.bound then env.conn else none) = connOf env := rfl
        rw [hcc]
        cases hcon : connOf env with
        | none =>
          have hf : SayFails env name := .inr ⟨hnet, (connOf_none env).1 hcon⟩
          rw [if_pos hf]
          dsimp only
          refine ⟨some name, { h with rest := ⟨hf, rfl, rest, hT⟩, outs := ?_, outT := ?_ }⟩
          · simp only [List.map_append, hout, List.map_cons, List.map_nil, Option.toList_some, bareOut, errOut]
            rw [if_neg hall']
          · intro o ho
            rcases List.mem_append.1 ho with ho | ho
            · exact h.outT o ho
            · simp only [List.mem_singleton] at ho; subst ho; trivial
        | some uc =>
          have huc : SayConnected env uc := (connOf_iff env uc).1 hcon
          have hf : ¬ SayFails env name := by
            rintro (⟨e, _⟩ | ⟨_, e⟩)
            · exact hall' e
            · rw [(connOf_none env).2 e] at hcon; cases hcon
          rw [if_neg hf]
          dsimp only
          -- the shared map after the label was written
          have htags : ∀ m', TagsOk msg (LabelTag env) (if uc.caps.labeledResponse then GoMap.set st.tags b!"label" (mintLabel m' env.id).1 else st.tags) := by
            intro m'
            split
            · rename_i hl
              exact tagsOk_set h.tags notClient_label (fun _ _ e => e) ⟨rfl, ⟨uc, huc, hl⟩, _, rfl⟩
            · exact h.tags
          have hlab : ∀ m', uc.caps.labeledResponse = true → ∃ n, GoMap.get (if uc.caps.labeledResponse then GoMap.set st.tags b!"label" (mintLabel m' env.id).1 else st.tags) b!"label" = some (labelOf env.id n) := by
            intro m' hl
            rw [if_pos hl, mget_mset, if_pos rfl]
            exact ⟨_, rfl⟩
          have key : ∀ out0 : List SayOut, out0.map bareOut = done.flatMap (outsFor env msg) ++
                (if msg.command = b!"PRIVMSG" ∧ casemap uc.cm name = b!"nickserv" then [.nickServ (sayText msg)] else []) →
              (∀ o ∈ out0, OutOk env msg o) →
              SayInv env msg targets
                { (if uc.caps.echoMessage = false then
                    { saySend env uc { st with pending := rest, out := out0 } name with
                      out := (saySend env uc { st with pending := rest, out := out0 } name).out ++
                        [.produced name (sayEcho env uc (saySend env uc { st with pending := rest, out := out0 } name) name)] }
                    else saySend env uc { st with pending := rest, out := out0 } name) with
                  out := (if uc.caps.echoMessage = false then
                    { saySend env uc { st with pending := rest, out := out0 } name with
                      out := (saySend env uc { st with pending := rest, out := out0 } name).out ++
                        [.produced name (sayEcho env uc (saySend env uc { st with pending := rest, out := out0 } name) name)] }
                    else saySend env uc { st with pending := rest, out := out0 } name).out ++ [.active name] }
                (done ++ [name]) none := by
            intro out0 ho1 ho2
            have hs : saySend env uc { st with pending := rest, out := out0 } name =
                { st with
                  pending := rest
                  out := out0
                  tags := if uc.caps.labeledResponse then GoMap.set st.tags b!"label" (mintLabel st.nextLabel env.id).1 else st.tags
                  nextLabel := if uc.caps.labeledResponse then (mintLabel st.nextLabel env.id).2 else st.nextLabel
                  raced := if uc.caps.labeledResponse then st.raced || (st.writing.isSome && uc.caps.messageTags) else st.raced
                  queue := st.queue ++ [⟨st.msg.command, sayParams st.msg name, uc.caps.messageTags⟩] } := by
              unfold saySend
              dsimp only
              split <;> rfl
            rw [hs]
            cases hech : uc.caps.echoMessage with
            | false =>
              rw [if_pos rfl]
              refine { msg_eq := hmsg, ok := ?_, rest := ?_, ups := ?_, outs := ?_, tags := htags _, queueT := ?_, writeT := h.writeT, wireT := h.wireT, outT := ?_ }
              · intro n hn
                rcases List.mem_append.1 hn with hn | hn
                · exact h.ok n hn
                · simp only [List.mem_singleton] at hn; exact hn ▸ hf
              · dsimp only; rw [hT]; simp
              · dsimp only
                rw [List.map_append, ← List.append_assoc, h.ups, List.filter_append, List.map_append,
                  List.filter_cons_of_pos (by simp [hnet])]
                simp [bareQ, bareUp, hmsg]
              · simp only [List.map_append, ho1, List.map_cons, List.map_nil, List.flatMap_append, List.flatMap_cons,
                  List.flatMap_nil, List.append_nil, Option.toList_none, bareOut, bareMsg, sayEcho, outsFor, hmsg]
                rw [if_neg hall', if_neg hself', if_neg hsrv', hcon]
                simp [hech]
              · intro q hq
                rcases List.mem_append.1 hq with hq | hq
                · obtain ⟨uc', g1, g2, _⟩ := h.queueT q hq
                  have : uc' = uc := Option.some.inj (g1.2.symm.trans huc.2)
                  subst this
                  exact ⟨uc', g1, g2, hlab _⟩
                · simp only [List.mem_singleton] at hq; subst hq
                  exact ⟨uc, huc, rfl, hlab _⟩
              · intro o ho
                simp only [List.mem_append, List.mem_singleton] at ho
                rcases ho with (ho | ho) | ho
                · exact ho2 o ho
                · subst ho
                  have base : TagsOk msg (EchoTags env) (GoMap.set (if uc.caps.labeledResponse then GoMap.set st.tags b!"label" (mintLabel st.nextLabel env.id).1 else st.tags) b!"time" (env.now rest.length)) :=
                    tagsOk_set (htags st.nextLabel) notClient_time (fun _ _ e => .inl (.inl e)) (.inl (.inr ⟨rfl, _, rfl⟩))
                  show TagsOk msg (EchoTags env) (sayEcho env uc _ name).tags
                  unfold sayEcho
                  dsimp only
                  split
                  · rename_i hacc
                    exact tagsOk_set base notClient_account (fun _ _ e => e) (.inr ⟨rfl, hacc, uc, huc, rfl⟩)
                  · exact base
                · subst ho; trivial
            | true =>
              rw [if_neg (by decide)]
              refine { msg_eq := hmsg, ok := ?_, rest := ?_, ups := ?_, outs := ?_, tags := htags _, queueT := ?_, writeT := h.writeT, wireT := h.wireT, outT := ?_ }
              · intro n hn
                rcases List.mem_append.1 hn with hn | hn
                · exact h.ok n hn
                · simp only [List.mem_singleton] at hn; exact hn ▸ hf
              · dsimp only; rw [hT]; simp
              · dsimp only
                rw [List.map_append, ← List.append_assoc, h.ups, List.filter_append, List.map_append,
                  List.filter_cons_of_pos (by simp [hnet])]
                simp [bareQ, bareUp, hmsg]
              · simp only [List.map_append, ho1, List.map_cons, List.map_nil, List.flatMap_append, List.flatMap_cons,
                  List.flatMap_nil, List.append_nil, Option.toList_none, bareOut, outsFor]
                rw [if_neg hall', if_neg hself', if_neg hsrv', hcon]
                simp [hech]
              · intro q hq
                rcases List.mem_append.1 hq with hq | hq
                · obtain ⟨uc', g1, g2, _⟩ := h.queueT q hq
                  have : uc' = uc := Option.some.inj (g1.2.symm.trans huc.2)
                  subst this
                  exact ⟨uc', g1, g2, hlab _⟩
                · simp only [List.mem_singleton] at hq; subst hq
                  exact ⟨uc, huc, rfl, hlab _⟩
              · intro o ho
                simp only [List.mem_append, List.mem_singleton] at ho
                rcases ho with ho | ho
                · exact ho2 o ho
                · subst ho; trivial
          by_cases hns : st.msg.command = b!"PRIVMSG" ∧ casemap uc.cm name = b!"nickserv"
          · rw [if_pos hns]
            refine ⟨none, key _ ?_ ?_⟩
            · rw [if_pos (by rw [← hmsg]; exact hns), List.map_append, hout, hmsg]
              rfl
            · intro o ho
              rcases List.mem_append.1 ho with ho | ho
              · exact h.outT o ho
              · simp only [List.mem_singleton] at ho; subst ho; trivial
          · rw [if_neg hns]
            refine ⟨none, key _ ?_ h.outT⟩
            rw [if_neg (by rw [← hmsg]; exact hns), hout, List.append_nil]

private theorem step_inv {env : SayEnv} {msg : TMsg} {targets : List Str} {st st' : SaySys} {op : SayOp} {done : List Str}
    {failed : Option Str} (h : SayInv env msg targets st done failed) (hs : sayStep env st op = some st') :
    ∃ done' failed', SayInv env msg targets st' done' failed' := by
  cases op with
  | loop =>
    simp only [sayStep] at hs
    split at hs
    · cases hs
    · rename_i name rest hp
      cases hs
      cases failed with
      | some n =>
        have := h.rest
        dsimp only at this
        rw [this.2.1] at hp
        cases hp
      | none =>
        obtain ⟨f, hi⟩ := target_inv h hp
        exact ⟨_, f, hi⟩
  | take =>
    simp only [sayStep] at hs
    split at hs
    · rename_i q rest hw hq
      cases hs
      obtain ⟨uc, g1, g2, g3⟩ := h.queueT q (by rw [hq]; simp)
      refine ⟨done, failed, { h with ups := ?_, queueT := ?_, writeT := ?_ }⟩
      · have := h.ups
        rw [hw, hq] at this
        rw [← this]
        simp [bareMsg, bareQ]
      · intro q' hq'
        exact h.queueT q' (by rw [hq]; simp [hq'])
      · intro m hm
        simp only [Option.some.injEq] at hm
        subst hm
        refine ⟨uc, g1, ?_, ?_⟩
        · intro e
          dsimp only
          rw [g2, e]
          rfl
        · intro e
          dsimp only
          rw [g2, e, if_pos rfl]
          exact ⟨h.tags, g3⟩
    · cases hs
  | written =>
    simp only [sayStep] at hs
    split at hs
    · rename_i m hw
      cases hs
      refine ⟨done, failed, { h with ups := ?_, writeT := ?_, wireT := ?_ }⟩
      · have := h.ups
        rw [hw] at this
        rw [← this]
        simp
      · intro m' hm'
        cases hm'
      · intro m' hm'
        rcases List.mem_append.1 hm' with hm' | hm'
        · exact h.wireT m' hm'
        · simp only [List.mem_singleton] at hm'
          subst hm'
          exact h.writeT m' hw
    · cases hs

private theorem run_inv {env : SayEnv} {msg : TMsg} {targets : List Str} {st' : SaySys} (ops : List SayOp) :
    ∀ {st : SaySys} {done : List Str} {failed : Option Str}, SayInv env msg targets st done failed →
      sayRun env st ops = some st' → ∃ done' failed', SayInv env msg targets st' done' failed' := by
  induction ops with
  | nil =>
    intro st done failed h hs
    cases hs
    exact ⟨_, _, h⟩
  | cons op ops ih =>
    intro st done failed h hs
    simp only [sayRun] at hs
    cases h1 : sayStep env st op with
    | none => rw [h1] at hs; cases hs
    | some st1 =>
      rw [h1] at hs
      obtain ⟨d, f, hi⟩ := step_inv h h1
      exact ih hi hs

private theorem reaches_inv {env : SayEnv} {n : Nat} {msg : TMsg} {targets : List Str} {st : SaySys}
    (h : SayReaches env n msg targets st) :
    ∃ done failed, SayInv env msg targets st done failed ∧ (∃ rest, sayServed env targets = done ++ rest) ∧
      (st.pending = [] → sayServed env targets = done ∧
        (failed = none → ∀ t ∈ targets, ¬ SayFails env t) ∧
        ∀ t, failed = some t → ∃ r, targets = sayServed env targets ++ t :: r ∧ SayFails env t) := by
  obtain ⟨h1, h2, h3, st0, ops, h4, h5⟩ := h
  obtain ⟨done, failed, hi⟩ := run_inv ops (start_inv (env := env) h1 h2 h3 h4) h5
  have tw : ∀ (l : List Str), (∀ t ∈ l, ¬ SayFails env t) → ∀ m, sayServed env (l ++ m) = l ++ sayServed env m := by
    intro l hl m
    induction l with
    | nil => rfl
    | cons a l ih =>
      unfold sayServed at ih ⊢
      rw [List.cons_append, List.takeWhile_cons_of_pos (by simpa using hl a (by simp)),
        ih (fun t ht => hl t (by simp [ht]))]
      rfl
  have hr := hi.rest
  refine ⟨done, failed, hi, ?_, ?_⟩
  · cases failed with
    | none => dsimp only at hr; rw [hr, tw done hi.ok]; exact ⟨_, rfl⟩
    | some n => obtain ⟨_, _, r, hr⟩ := hr; rw [hr, tw done hi.ok]; exact ⟨_, rfl⟩
  · intro hp
    cases failed with
    | none =>
      dsimp only at hr
      rw [hp, List.append_nil] at hr
      have hs : sayServed env targets = done := by
        rw [hr]
        have := tw done hi.ok []
        simpa [sayServed] using this
      refine ⟨hs, fun _ => by rw [hr]; exact hi.ok, fun t ht => by cases ht⟩
    | some n =>
      obtain ⟨hf, _, r, hr⟩ := hr
      have hs : sayServed env targets = done := by
        rw [hr, tw done hi.ok]
        unfold sayServed
        rw [List.takeWhile_cons_of_neg (by simpa using hf), List.append_nil]
      refine ⟨hs, (fun e => nomatch e), fun t ht => ?_⟩
      cases ht
      exact ⟨r, by rw [hs]; exact hr, hf⟩

private theorem params_eq {n : Nat} {msg : TMsg} {st0 : SaySys} (h : sayStart n msg = some st0) (name : Str) :
    sayParams msg name = sayParamsFor msg name := by
  unfold sayStart at h
  by_cases hlen : msg.params.length < (if msg.command ≠ b!"TAGMSG" then 2 else 1)
  · rw [if_pos hlen] at h; cases h
  · unfold sayParams sayParamsFor sayText
    by_cases hc : msg.command = b!"TAGMSG"
    · rw [if_neg (fun e => e hc), if_pos hc]
      cases msg.params with
      | nil => rfl
      | cons a l => simp
    · rw [if_pos hc, if_neg hc]
      rw [if_pos hc] at hlen
      match hm : msg.params with
      | [] => rw [hm] at hlen; simp at hlen
      | [a] => rw [hm] at hlen; simp at hlen
      | a :: b :: l => rfl

/-! ## Theorems -/

/-- C96: what a client says to someone on the network is sent to the server once, in order, with the text unchanged:
at any time what was written is a beginning of the list of these messages, one for each target of the command up to the
first that cannot be served, and once everything is written it is that list. -/
theorem C96_relayed (env : SayEnv) (n : Nat) (msg : TMsg) (targets : List Str) (st : SaySys)
    (h : SayReaches env n msg targets st) :
    ∃ rest, st.wire.map (fun m => (m.source, m.command, m.params)) ++ rest =
        ((sayServed env targets).filter (fun t => decide (SayToNet env t))).map
          (fun t => (none, msg.command, sayParamsFor msg t)) ∧
      (SayFinished st → rest = []) := by
  obtain ⟨done, failed, hi, ⟨more, hm⟩, hfin⟩ := reaches_inv h
  obtain ⟨_, _, _, st0, _, hst, _⟩ := h
  have hups := congrArg (List.map (fun m : TMsg => (m.source, m.command, m.params))) hi.ups
  simp only [List.map_append, List.map_map] at hups
  have e1 : st.wire.map ((fun m : TMsg => (m.source, m.command, m.params)) ∘ bareMsg) =
      st.wire.map (fun m => (m.source, m.command, m.params)) := rfl
  have e2 : (done.filter (fun n => decide (SayToNet env n))).map
      ((fun m : TMsg => (m.source, m.command, m.params)) ∘ bareUp msg) =
      (done.filter (fun n => decide (SayToNet env n))).map (fun t => (none, msg.command, sayParamsFor msg t)) := by
    apply List.map_congr_left
    intro t _
    show (none, msg.command, sayParams msg t) = _
    rw [params_eq hst]
  rw [e1, e2] at hups
  refine ⟨st.writing.toList.map ((fun m : TMsg => (m.source, m.command, m.params)) ∘ bareMsg) ++
      st.queue.map ((fun m : TMsg => (m.source, m.command, m.params)) ∘ bareQ) ++
      (more.filter (fun t => decide (SayToNet env t))).map (fun t => (none, msg.command, sayParamsFor msg t)), ?_, ?_⟩
  · rw [hm, List.filter_append, List.map_append, ← hups]
    simp only [List.append_assoc]
  · rintro ⟨f1, f2, f3⟩
    have := (hfin f1).1
    rw [hm] at this
    have hmore : more = [] := by simpa using this
    rw [f2, f3, hmore]
    rfl

/-- C96: the tags of what is sent to the server are those that clients may set, unchanged, and the label by which the
bouncer recognizes the answers to this client; there are none if the server does not know tags. -/
theorem C96_sent_tags (env : SayEnv) (n : Nat) (msg : TMsg) (targets : List Str) (st : SaySys)
    (h : SayReaches env n msg targets st) (m : TMsg) (hm : m ∈ st.wire) :
    ∃ uc, SayConnected env uc ∧ (uc.caps.messageTags = false → m.tags = []) ∧
      (uc.caps.messageTags = true →
        (∀ k, ClientTag k → GoMap.get m.tags k = GoMap.get msg.tags k) ∧
        (∀ k v, GoMap.get m.tags k = some v → ¬ ClientTag k →
          k = b!"label" ∧ uc.caps.labeledResponse = true ∧ ∃ i, v = labelOf env.id i) ∧
        (uc.caps.labeledResponse = true → ∃ i, GoMap.get m.tags b!"label" = some (labelOf env.id i))) := by
  obtain ⟨done, failed, hi, _, _⟩ := reaches_inv h
  obtain ⟨uc, g1, g2, g3⟩ := hi.wireT m hm
  refine ⟨uc, g1, g2, fun e => ⟨(g3 e).1.1, ?_, (g3 e).2⟩⟩
  intro k v hg hk
  obtain ⟨e1, ⟨uc', e2, e3⟩, e4⟩ := (g3 e).1.2 k v hg hk
  have : uc' = uc := Option.some.inj (e2.2.symm.trans g1.2)
  subst this
  exact ⟨e1, e3, e4⟩

/-- C96: a client cannot forge tags. In everything that other clients or the log get because of a command of a client, and
in what the client gets itself from a network, a tag that clients may not set was set by the bouncer: the time, the
account of the user there, or the label of the message sent to the server. The tags clients may set arrive unchanged. -/
theorem C96_not_forged (env : SayEnv) (n : Nat) (msg : TMsg) (targets : List Str) (st : SaySys)
    (h : SayReaches env n msg targets st) (m : TMsg)
    (hm : .broadcast m ∈ st.out ∨ (∃ t, .produced t m ∈ st.out) ∨ (.toClient m ∈ st.out ∧ env.bound = true)) :
    (∀ k, ClientTag k → GoMap.get m.tags k = GoMap.get msg.tags k) ∧
    ∀ k v, GoMap.get m.tags k = some v → ¬ ClientTag k →
      (k = b!"time" ∧ ∃ i, v = env.now i) ∨
      (k = b!"account" ∧ v ≠ [] ∧ ∃ uc, SayConnected env uc ∧ v = uc.account) ∨
      (k = b!"label" ∧ (∃ uc, SayConnected env uc ∧ uc.caps.labeledResponse = true) ∧ ∃ i, v = labelOf env.id i) := by
  obtain ⟨done, failed, hi, _, _⟩ := reaches_inv h
  have key : TagsOk msg (EchoTags env) m.tags := by
    rcases hm with hm | ⟨t, hm⟩ | ⟨hm, hb⟩
    · exact tagsOk_mono (hi.outT _ hm) (fun _ _ e => .inl e)
    · exact hi.outT _ hm
    · rcases hi.outT _ hm with g | ⟨g, _⟩
      · exact tagsOk_mono g (fun _ _ e => .inl e)
      · rw [hb] at g; cases g
  refine ⟨key.1, fun k v hg hk => ?_⟩
  rcases key.2 k v hg hk with (e | e) | e
  · exact .inr (.inr e)
  · exact .inl e
  · exact .inr (.inl e)

private theorem outs_final {env : SayEnv} {n : Nat} {msg : TMsg} {targets : List Str} {st : SaySys}
    (h : SayReaches env n msg targets st) (hp : st.pending = []) {β : Type} (f : SayOut → Option β)
    (hf : ∀ o, f (bareOut o) = f o) (he : ∀ t, f (errOut env t) = none) :
    st.out.filterMap f = (sayServed env targets).flatMap (fun t => (outsFor env msg t).filterMap f) := by
  obtain ⟨done, failed, hi, hpre, hfin⟩ := reaches_inv h
  have := congrArg (List.filterMap f) hi.outs
  rw [List.filterMap_map] at this
  have e1 : (f ∘ bareOut) = f := funext hf
  rw [e1, List.filterMap_append, List.filterMap_map] at this
  have e2 : (f ∘ errOut env) = fun _ => none := funext he
  rw [e2] at this
  have e3 : failed.toList.filterMap (fun _ => (none : Option β)) = [] := by cases failed <;> rfl
  rw [e3, List.append_nil] at this
  rw [this, (hfin hp).1]
  clear this hfin hi hpre
  induction done with
  | nil => rfl
  | cons a l ih => rw [List.flatMap_cons, List.filterMap_append, ih, List.flatMap_cons]

/-- C96: only administrators talk to everyone. A message to all clients of the bouncer is sent only for an administrator,
once for each target that means everyone, in the name of the service. -/
theorem C96_broadcast (env : SayEnv) (n : Nat) (msg : TMsg) (targets : List Str) (st : SaySys)
    (h : SayReaches env n msg targets st) :
    (∀ m, .broadcast m ∈ st.out → env.admin = true) ∧
    (st.pending = [] →
      st.out.filterMap (fun o => match o with | .broadcast m => some (m.source, m.command, m.params) | _ => none) =
        ((sayServed env targets).filter (fun t => decide (SayToAll env t))).map
          (fun t => (some ⟨b!"BouncerServ", b!"BouncerServ", b!"BouncerServ"⟩, msg.command, sayParamsFor msg t))) := by
  refine ⟨?_, ?_⟩
  · intro m hm
    obtain ⟨done, failed, hi, _, _⟩ := reaches_inv h
    have hb : bareOut (.broadcast m) ∈ st.out.map bareOut := List.mem_map_of_mem hm
    rw [hi.outs, List.mem_append] at hb
    rcases hb with hb | hb
    · obtain ⟨t, ht, hb⟩ := List.mem_flatMap.1 hb
      unfold outsFor at hb
      split at hb
      · rename_i hall
        cases ha : env.admin with
        | true => rfl
        | false => exact absurd (.inl ⟨hall, ha⟩) (hi.ok t ht)
      · exfalso
        split at hb
        · simp [bareOut] at hb
        · split at hb
          · rcases List.mem_append.1 hb with hb | hb <;> split at hb <;> simp [bareOut] at hb
          · split at hb
            · cases hb
            · simp only [List.mem_append] at hb
              rcases hb with (hb | hb) | hb
              · split at hb <;> simp [bareOut] at hb
              · split at hb <;> simp [bareOut] at hb
              · simp [bareOut] at hb
    · obtain ⟨t, _, hb⟩ := List.mem_map.1 hb
      unfold errOut at hb
      split at hb <;> simp [bareOut] at hb
  · intro hp
    rw [outs_final h hp _ (by intro o; cases o <;> rfl) (by intro t; by_cases e : SayToAll env t <;> simp [errOut, e])]
    obtain ⟨_, _, _, st0, _, hst, _⟩ := h
    induction sayServed env targets with
    | nil => rfl
    | cons t l ih =>
      rw [List.flatMap_cons, ih]
      by_cases hall : SayToAll env t
      · rw [List.filter_cons_of_pos (by simpa using hall)]
        unfold outsFor
        rw [if_pos hall]
        simp [servicePrefix, params_eq hst]
      · rw [List.filter_cons_of_neg (by simpa using hall)]
        unfold outsFor
        rw [if_neg hall]
        have : (if SayToSelf env t then [SayOut.toClient ⟨[], some env.self, msg.command, sayParams msg t⟩]
          else if SayToService env t then
            (if env.echo then [SayOut.toClient ⟨[], some env.self, msg.command, sayParams msg t⟩] else []) ++
              (if msg.command = b!"PRIVMSG" then [SayOut.service (sayText msg)] else [])
          else match connOf env with
            | none => []
            | some uc =>
              (if msg.command = b!"PRIVMSG" ∧ casemap uc.cm t = b!"nickserv" then [SayOut.nickServ (sayText msg)] else []) ++
              (if uc.caps.echoMessage = false then [SayOut.produced t ⟨[], some uc.self, msg.command, sayParams msg t⟩] else []) ++
              [SayOut.active t]).filterMap
            (fun o => match o with | .broadcast m => some (m.source, m.command, m.params) | _ => none) = [] := by
          split
          · rfl
          · split
            · split <;> split <;> rfl
            · split
              · rfl
              · split <;> split <;> rfl
        rw [this]
        rfl

/-- C96: what is for the service stays in the bouncer: each PRIVMSG to it is one command, nothing else is a command of the
service. (By `C96_relayed` the server gets nothing of it, by `C96_echoed` neither the log nor other clients.) -/
theorem C96_service (env : SayEnv) (n : Nat) (msg : TMsg) (targets : List Str) (st : SaySys)
    (h : SayReaches env n msg targets st) (hp : st.pending = []) :
    st.out.filterMap (fun o => match o with | .service t => some t | _ => none) =
      if msg.command = b!"PRIVMSG" then
        ((sayServed env targets).filter (fun t => decide (SayToService env t))).map (fun _ => (msg.params.drop 1).headD [])
      else [] := by
  rw [outs_final h hp _ (by intro o; cases o <;> rfl) (by intro t; by_cases e : SayToAll env t <;> simp [errOut, e])]
  induction sayServed env targets with
  | nil => split <;> rfl
  | cons t l ih =>
    rw [List.flatMap_cons, ih]
    unfold outsFor
    by_cases hs : SayToService env t
    · rw [if_neg hs.1, if_neg hs.2.1, if_pos hs, List.filter_cons_of_pos (by simpa using hs)]
      cases env.echo <;> (by_cases hc : msg.command = b!"PRIVMSG" <;> simp [hc, sayText])
    · rw [List.filter_cons_of_neg (by simpa using hs)]
      have : ∀ L : List SayOut, (∀ o ∈ L, ∀ x, o ≠ .service x) →
          L.filterMap (fun o => match o with | .service t => some t | _ => none) = [] := by
        intro L hL
        rw [List.filterMap_eq_nil_iff]
        intro o ho
        cases o <;> first | rfl | exact absurd rfl (hL _ ho _)
      rw [this, List.nil_append]
      intro o ho x e
      subst e
      split at ho
      · simp at ho
      · split at ho
        · simp at ho
        · split at ho
          · cases ho
          · simp only [List.mem_append] at ho
            rcases ho with (ho | ho) | ho
            · split at ho <;> simp at ho
            · split at ho <;> simp at ho
            · simp at ho

/-- C96: if the server does not echo messages, the log and the other clients get what the client says, once, under the
name of the user on the network; if the server does, they get nothing from here (the echo is C19's). -/
theorem C96_echoed (env : SayEnv) (n : Nat) (msg : TMsg) (targets : List Str) (st : SaySys)
    (h : SayReaches env n msg targets st) (hp : st.pending = []) :
    (∀ uc, SayConnected env uc →
      st.out.filterMap (fun o => match o with | .produced t m => some (t, m.source, m.command, m.params) | _ => none) =
        if uc.caps.echoMessage then []
        else ((sayServed env targets).filter (fun t => decide (SayToNet env t))).map
          (fun t => (t, some uc.self, msg.command, sayParamsFor msg t))) ∧
    ((env.bound = false ∨ env.conn = none) → ∀ t m, .produced t m ∉ st.out) := by
  have hfm := outs_final h hp
    (fun o => match o with | .produced t m => some (t, m.source, m.command, m.params) | _ => none)
    (by intro o; cases o <;> rfl) (by intro t; by_cases e : SayToAll env t <;> simp [errOut, e])
  obtain ⟨_, _, _, st0, _, hst, _⟩ := h
  have hpf : (fun t => sayParams msg t) = (fun t => sayParamsFor msg t) := funext (params_eq hst)
  have hother : ∀ t, ¬ SayToNet env t →
      (outsFor env msg t).filterMap
        (fun o => match o with | .produced t m => some (t, m.source, m.command, m.params) | _ => none) = [] := by
    intro t hn
    unfold outsFor
    split
    · rfl
    · rename_i h1
      split
      · rfl
      · rename_i h2
        split
        · split <;> split <;> rfl
        · rename_i h3
          exact absurd ⟨h1, h2, h3⟩ hn
  refine ⟨?_, ?_⟩
  · intro uc huc
    rw [hfm]
    have hc : connOf env = some uc := (connOf_iff env uc).2 huc
    induction sayServed env targets with
    | nil => split <;> rfl
    | cons t l ih =>
      rw [List.flatMap_cons, ih]
      by_cases hn : SayToNet env t
      · rw [List.filter_cons_of_pos (by simpa using hn)]
        unfold outsFor
        rw [if_neg hn.1, if_neg hn.2.1, if_neg hn.2.2, hc]
        dsimp only
        have := params_eq hst t
        cases uc.caps.echoMessage <;>
          (by_cases hns : msg.command = b!"PRIVMSG" ∧ casemap uc.cm t = b!"nickserv" <;> simp [hns, this])
      · rw [List.filter_cons_of_neg (by simpa using hn), hother t hn, List.nil_append]
  · intro hd t m hm
    have hc : connOf env = none := (connOf_none env).2 hd
    have hz : st.out.filterMap
        (fun o => match o with | .produced t m => some (t, m.source, m.command, m.params) | _ => none) = [] := by
      rw [hfm]
      rw [List.flatMap_eq_nil_iff]
      intro t _
      by_cases hn : SayToNet env t
      · unfold outsFor
        rw [if_neg hn.1, if_neg hn.2.1, if_neg hn.2.2, hc]
        rfl
      · exact hother t hn
    rw [List.filterMap_eq_nil_iff] at hz
    exact absurd (hz _ hm) (by simp)

/-- C96: the client is told if something was not passed on: a command is refused as a whole if parameters are missing;
otherwise there is one error if a target cannot be served, which says why, and none if all are served. -/
theorem C96_errors (env : SayEnv) (n : Nat) (msg : TMsg) (targets : List Str) (st : SaySys)
    (h : SayReaches env n msg targets st) (hp : st.pending = []) :
    (sayServed env targets = targets →
      st.out.filter (fun o => match o with | .notAllowed _ | .notConnected => true | _ => false) = []) ∧
    ∀ t r, targets = sayServed env targets ++ t :: r →
      st.out.filter (fun o => match o with | .notAllowed _ | .notConnected => true | _ => false) =
        if SayToAll env t then [.notAllowed t] else [.notConnected] := by
  obtain ⟨done, failed, hi, _, hfin⟩ := reaches_inv h
  obtain ⟨hd, hf0, hf1⟩ := hfin hp
  have hbare : ∀ L : List SayOut, (L.map bareOut).filter (fun o => match o with | .notAllowed _ | .notConnected => true | _ => false) =
      L.filter (fun o => match o with | .notAllowed _ | .notConnected => true | _ => false) := by
    intro L
    induction L with
    | nil => rfl
    | cons o L ih => cases o <;> simp [bareOut, ih]
  have hz : ∀ t, (outsFor env msg t).filter (fun o => match o with | .notAllowed _ | .notConnected => true | _ => false) = [] := by
    intro t
    unfold outsFor
    split
    · rfl
    · split
      · rfl
      · split
        · split <;> split <;> rfl
        · split
          · rfl
          · split <;> split <;> rfl
  have hall : ∀ D : List Str, (D.flatMap (outsFor env msg)).filter
      (fun o => match o with | .notAllowed _ | .notConnected => true | _ => false) = [] := by
    intro D
    induction D with
    | nil => rfl
    | cons t D ih => rw [List.flatMap_cons, List.filter_append, hz, ih]; rfl
  have hmain : st.out.filter (fun o => match o with | .notAllowed _ | .notConnected => true | _ => false) =
      failed.toList.map (errOut env) := by
    rw [← hbare, hi.outs, List.filter_append, hall, List.nil_append]
    cases failed with
    | none => rfl
    | some t =>
      simp only [Option.toList_some, List.map_cons, List.map_nil]
      unfold errOut
      split <;> rfl
  rw [hmain]
  refine ⟨?_, ?_⟩
  · intro he
    cases failed with
    | none => rfl
    | some t =>
      obtain ⟨r, hr, _⟩ := hf1 t rfl
      rw [he] at hr
      have := congrArg List.length hr
      simp at this
  · intro t r he
    cases failed with
    | none =>
      have hno := hf0 rfl
      have : sayServed env targets = targets := by
        unfold sayServed
        have tw : ∀ l : List Str, (∀ t ∈ l, ¬ SayFails env t) → l.takeWhile (fun n => decide (¬ SayFails env n)) = l := by
          intro l hl
          induction l with
          | nil => rfl
          | cons a l ih =>
            rw [List.takeWhile_cons_of_pos (by simpa using hl a (by simp)), ih (fun t ht => hl t (by simp [ht]))]
        exact tw targets hno
      rw [this] at he
      have := congrArg List.length he
      simp at this
    | some t' =>
      obtain ⟨r', hr', _⟩ := hf1 t' rfl
      have e := List.append_cancel_left (hr'.symm.trans he)
      cases e
      simp only [Option.toList_some, List.map_cons, List.map_nil]
      unfold errOut
      split <;> rfl

/-- C96: a command without its parameters has no effect. -/
theorem C96_incomplete (n : Nat) (msg : TMsg) :
    sayStart n msg = none ↔ msg.params.length < (if msg.command = b!"TAGMSG" then 1 else 2) := by
  unfold sayStart
  by_cases hc : msg.command = b!"TAGMSG"
  · simp [hc]
  · simp [hc]

private theorem start_pending {n : Nat} {msg : TMsg} {st0 : SaySys} (h : sayStart n msg = some st0) :
    st0 = ⟨msg, splitByte 44 (msg.params.headD []), copyClientTags msg.tags, n, [], [], none, [], false⟩ := by
  unfold sayStart at h
  by_cases hlen : msg.params.length < (if msg.command ≠ b!"TAGMSG" then 2 else 1)
  · rw [if_pos hlen] at h; cases h
  · rw [if_neg hlen] at h
    cases h
    rfl

/-- A target changes only this much of what the writer sees. -/
private theorem target_queue (env : SayEnv) (st : SaySys) (name : Str) :
    (sayTarget env st name).writing = st.writing ∧ (sayTarget env st name).wire = st.wire ∧
    (((sayTarget env st name).queue = st.queue ∧ (sayTarget env st name).raced = st.raced) ∨
      ∃ uc, SayConnected env uc ∧
        (sayTarget env st name).queue = st.queue ++ [⟨st.msg.command, sayParams st.msg name, uc.caps.messageTags⟩] ∧
        (sayTarget env st name).raced = (st.raced || (uc.caps.labeledResponse && (st.writing.isSome && uc.caps.messageTags))) ∧
        (uc.caps.labeledResponse = true →
          GoMap.get (sayTarget env st name).tags b!"label" = some (labelOf env.id st.nextLabel))) ∧
    ((sayTarget env st name).pending = st.pending ∨ (sayTarget env st name).pending = []) := by
  unfold sayTarget
  dsimp only
  split
  · split
    · exact ⟨rfl, rfl, .inl ⟨rfl, rfl⟩, .inr rfl⟩
    · exact ⟨rfl, rfl, .inl ⟨rfl, rfl⟩, .inl rfl⟩
  · split
    · exact ⟨rfl, rfl, .inl ⟨rfl, rfl⟩, .inl rfl⟩
    · split
      · exact ⟨rfl, rfl, .inl ⟨rfl, rfl⟩, .inl rfl⟩
      · have hcc : (if env.bound then env.conn else none) = connOf env := rfl
        rw [hcc]
        cases hcon : connOf env with
        | none => exact ⟨rfl, rfl, .inl ⟨rfl, rfl⟩, .inr rfl⟩
        | some uc =>
          dsimp only
          have key : ∀ s : SaySys, s.writing = st.writing → s.wire = st.wire → s.queue = st.queue → s.raced = st.raced →
              s.msg = st.msg → s.pending = st.pending → s.nextLabel = st.nextLabel →
              (saySend env uc s name).writing = st.writing ∧ (saySend env uc s name).wire = st.wire ∧
              (saySend env uc s name).queue = st.queue ++ [⟨st.msg.command, sayParams st.msg name, uc.caps.messageTags⟩] ∧
              (saySend env uc s name).raced =
                (st.raced || (uc.caps.labeledResponse && (st.writing.isSome && uc.caps.messageTags))) ∧
              (uc.caps.labeledResponse = true →
                GoMap.get (saySend env uc s name).tags b!"label" = some (labelOf env.id st.nextLabel)) ∧
              (saySend env uc s name).pending = st.pending := by
            intro s h1 h2 h3 h4 h5 h6 h7
            unfold saySend
            cases hl : uc.caps.labeledResponse
            · simp [h1, h2, h3, h4, h5, h6]
            · simp [h1, h2, h3, h4, h5, h6, h7, mintLabel, mget_mset]
          have huc : SayConnected env uc := (connOf_iff env uc).1 hcon
          have fin : ∀ s : SaySys, s.writing = st.writing → s.wire = st.wire → s.queue = st.queue → s.raced = st.raced →
              s.msg = st.msg → s.pending = st.pending → s.nextLabel = st.nextLabel →
              ∀ o : List SayOut, ∀ r : SaySys, r = { saySend env uc s name with out := o } →
              r.writing = st.writing ∧ r.wire = st.wire ∧
              ((r.queue = st.queue ∧ r.raced = st.raced) ∨
                ∃ uc, SayConnected env uc ∧
                  r.queue = st.queue ++ [⟨st.msg.command, sayParams st.msg name, uc.caps.messageTags⟩] ∧
                  r.raced = (st.raced || (uc.caps.labeledResponse && (st.writing.isSome && uc.caps.messageTags))) ∧
                  (uc.caps.labeledResponse = true → GoMap.get r.tags b!"label" = some (labelOf env.id st.nextLabel))) ∧
              (r.pending = st.pending ∨ r.pending = []) := by
            intro s h1 h2 h3 h4 h5 h6 h7 o r hr
            obtain ⟨g1, g2, g3, g4, g5, g6⟩ := key s h1 h2 h3 h4 h5 h6 h7
            subst hr
            exact ⟨g1, g2, .inr ⟨uc, huc, g3, g4, g5⟩, .inl g6⟩
          by_cases hns : st.msg.command = b!"PRIVMSG" ∧ casemap uc.cm name = b!"nickserv"
          · rw [if_pos hns]
            by_cases he : uc.caps.echoMessage = false
            · rw [if_pos he]
              exact fin { st with out := st.out ++ [.nickServ (sayText st.msg)] } rfl rfl rfl rfl rfl rfl rfl _ _ rfl
            · rw [if_neg he]
              exact fin { st with out := st.out ++ [.nickServ (sayText st.msg)] } rfl rfl rfl rfl rfl rfl rfl _ _ rfl
          · rw [if_neg hns]
            by_cases he : uc.caps.echoMessage = false
            · rw [if_pos he]
              exact fin st rfl rfl rfl rfl rfl rfl rfl _ _ rfl
            · rw [if_neg he]
              exact fin st rfl rfl rfl rfl rfl rfl rfl _ _ rfl

/-- C96: no memory is written while another goroutine reads it, and a message carries the label that was chosen for it,
if the command has one target only. (For several targets see `C96_race_violated` and `C96_labels_violated`.) -/
theorem C96_one_target_partial (env : SayEnv) (n : Nat) (msg : TMsg) (target : Str) (st : SaySys)
    (h : SayReaches env n msg [target] st) :
    st.raced = false ∧
    ∀ m ∈ st.wire, ∀ uc, SayConnected env uc → uc.caps.messageTags = true → uc.caps.labeledResponse = true →
      GoMap.get m.tags b!"label" = some (labelOf env.id n) := by
  obtain ⟨h1, h2, h3, st0, ops, h4, h5⟩ := h
  have h0 := start_pending h4
  have hsplit : splitByte 44 (msg.params.headD []) = [target] := by rw [h1]; exact splitByte_joinStr 44 [target] h2 h3
  rw [hsplit] at h0
  have key : ∀ (ops : List SayOp) (s : SaySys),
      ((s = st0) ∨
        (s.pending = [] ∧ s.raced = false ∧
          (∀ q ∈ s.queue, ∀ uc, SayConnected env uc → uc.caps.messageTags = true → uc.caps.labeledResponse = true →
            q.tagged = true ∧ GoMap.get s.tags b!"label" = some (labelOf env.id n)) ∧
          (∀ m ∈ s.writing.toList ++ s.wire, ∀ uc, SayConnected env uc → uc.caps.messageTags = true →
            uc.caps.labeledResponse = true → GoMap.get m.tags b!"label" = some (labelOf env.id n)))) →
      sayRun env s ops = some st →
      st.raced = false ∧ ∀ m ∈ st.wire, ∀ uc, SayConnected env uc → uc.caps.messageTags = true →
        uc.caps.labeledResponse = true → GoMap.get m.tags b!"label" = some (labelOf env.id n) := by
    intro ops
    induction ops with
    | nil =>
      intro s hs hr
      cases hr
      rcases hs with rfl | ⟨_, g1, _, g2⟩
      · rw [h0]; simp
      · exact ⟨g1, fun m hm => g2 m (by simp [hm])⟩
    | cons op ops ih =>
      intro s hs hr
      simp only [sayRun] at hr
      cases hst : sayStep env s op with
      | none => rw [hst] at hr; cases hr
      | some s1 =>
        rw [hst] at hr
        refine ih s1 (.inr ?_) hr
        rcases hs with rfl | ⟨g0, g1, g2, g3⟩
        · rw [h0] at hst
          cases op with
          | take => cases hst
          | written => cases hst
          | loop =>
            simp only [sayStep, Option.some.injEq] at hst
            obtain ⟨t1, t2, t3, t4⟩ := target_queue env
              ⟨msg, [], copyClientTags msg.tags, n, [], [], none, [], false⟩ target
            rw [hst] at t1 t2 t3 t4
            refine ⟨by rcases t4 with t4 | t4 <;> exact t4, ?_, ?_, ?_⟩
            · rcases t3 with ⟨_, t3⟩ | ⟨uc, _, _, t3, _⟩
              · exact t3
              · rw [t3]; simp
            · intro q hq uc' huc' hmt hlr
              rcases t3 with ⟨t3, _⟩ | ⟨uc, huc, t3, _, t5⟩
              · rw [t3] at hq; cases hq
              · have : uc' = uc := Option.some.inj (huc'.2.symm.trans huc.2)
                subst this
                rw [t3] at hq
                simp only [List.nil_append, List.mem_singleton] at hq
                subst hq
                exact ⟨hmt, t5 hlr⟩
            · rw [t1, t2]; simp
        · cases op with
          | loop => simp only [sayStep, g0] at hst; cases hst
          | take =>
            simp only [sayStep] at hst
            split at hst
            · rename_i q rest hw hq
              cases hst
              refine ⟨g0, g1, fun q' hq' => g2 q' (by rw [hq]; simp [hq']), ?_⟩
              intro m hm uc huc hmt hlr
              simp only [Option.toList_some, List.cons_append, List.nil_append, List.mem_cons] at hm
              rcases hm with rfl | hm
              · obtain ⟨e1, e2⟩ := g2 q (by rw [hq]; simp) uc huc hmt hlr
                dsimp only
                rw [if_pos e1]
                exact e2
              · exact g3 m (by simp [hm]) uc huc hmt hlr
            · cases hst
          | written =>
            simp only [sayStep] at hst
            split at hst
            · rename_i m hw
              cases hst
              refine ⟨g0, g1, g2, ?_⟩
              intro m' hm'
              apply g3 m'
              rw [hw]
              simp only [Option.toList_none, List.nil_append, List.mem_append, List.mem_singleton] at hm'
              simp only [Option.toList_some, List.cons_append, List.nil_append, List.mem_cons]
              exact hm'.elim .inr .inl
            · cases hst
  exact key ops st0 (.inl rfl) h5

/-! ## Cases, and what goes wrong -/

/-- A client of an administrator on a network whose server knows tags and labels, but does not echo messages. -/
def sayEnvEx : SayEnv :=
  { id := 7, hostname := b!"bouncer.example", admin := true, bound := true,
    conn := some ⟨⟨false, true, true⟩, .rfc1459, ⟨b!"ann", b!"ann", b!"host"⟩, b!"annacc"⟩, cm := .rfc1459,
    self := ⟨b!"ann", b!"ann", b!"host"⟩, echo := false, now := fun _ => b!"2024-01-01T00:00:00.000Z" }

/-- A message with a tag clients may set and one they may not. -/
def sayMsgEx (targets : Str) : TMsg :=
  ⟨[(b!"+react", b!"x"), (b!"account", b!"root")], none, b!"PRIVMSG", [targets, b!"hi"]⟩

/-- A command with a target on the network, the service and everyone: each gets its part, and the forged account does not
get through. -/
example : SayReaches sayEnvEx 3 (sayMsgEx b!"#go,bouncerSERV,$bouncer.example")
      [b!"#go", b!"bouncerSERV", b!"$bouncer.example"]
      ⟨sayMsgEx b!"#go,bouncerSERV,$bouncer.example", [], [(b!"+react", b!"x"), (b!"label", b!"sd-7-3")], 4,
        [.produced b!"#go" ⟨[(b!"+react", b!"x"), (b!"label", b!"sd-7-3"), (b!"time", b!"2024-01-01T00:00:00.000Z"),
            (b!"account", b!"annacc")], some ⟨b!"ann", b!"ann", b!"host"⟩, b!"PRIVMSG", [b!"#go", b!"hi"]⟩,
          .active b!"#go", .service b!"hi",
          .broadcast ⟨[(b!"+react", b!"x"), (b!"label", b!"sd-7-3"), (b!"time", b!"2024-01-01T00:00:00.000Z")],
            some servicePrefix, b!"PRIVMSG", [b!"$bouncer.example", b!"hi"]⟩],
        [], none, [⟨[(b!"+react", b!"x"), (b!"label", b!"sd-7-3")], none, b!"PRIVMSG", [b!"#go", b!"hi"]⟩], false⟩ := by
  refine ⟨by decide, by decide, by decide, _, [.loop, .take, .loop, .written, .loop], rfl, ?_⟩
  decide +kernel

/-- The targets of the case: two are for the bouncer, none fails; without rights the last one does. -/
example : sayServed sayEnvEx [b!"#go", b!"bouncerSERV", b!"$bouncer.example"] =
      [b!"#go", b!"bouncerSERV", b!"$bouncer.example"] ∧
    SayToNet sayEnvEx b!"#go" ∧ SayToService sayEnvEx b!"bouncerSERV" ∧ SayToAll sayEnvEx b!"$bouncer.example" ∧
    sayServed { sayEnvEx with admin := false } [b!"#go", b!"$bouncer.example", b!"#rust"] = [b!"#go"] := by
  decide +kernel

/-- What one would expect of memory shared by goroutines: the event loop does not write to a map that the goroutine of the
connection is reading. -/
def SayNoRace : Prop := ∀ env n msg targets st, SayReaches env n msg targets st → st.raced = false

/-- C96: the code does not have this property: the messages to the targets of one command share a map, and the label for
the second target is written to it while the message to the first is being written to the server. The Go runtime ends
the program when it notices this. -/
theorem C96_race_violated : ¬ SayNoRace := by
  intro h
  have h1 := h sayEnvEx 3 (sayMsgEx b!"#go,#rust") [b!"#go", b!"#rust"]
    (((sayStart 3 (sayMsgEx b!"#go,#rust")).bind (fun s => sayRun sayEnvEx s [.loop, .take, .loop])).getD
      ⟨sayMsgEx [], [], [], 0, [], [], none, [], false⟩)
    ⟨by decide, by decide, by decide, _, [.loop, .take, .loop], rfl, by decide +kernel⟩
  exact absurd h1 (by decide +kernel)

/-- What one would expect of labels: two messages to the server do not have the same one. -/
def SayOwnLabels : Prop := ∀ env n msg targets st, SayReaches env n msg targets st →
  ∀ uc, SayConnected env uc → uc.caps.messageTags = true → uc.caps.labeledResponse = true →
    (st.wire.map (fun m => GoMap.get m.tags b!"label")).Nodup

/-- C96: nor this one: if the first message is written late, it carries the label of the second. -/
theorem C96_labels_violated : ¬ SayOwnLabels := by
  intro h
  have h1 := h sayEnvEx 3 (sayMsgEx b!"#go,#rust") [b!"#go", b!"#rust"]
    (((sayStart 3 (sayMsgEx b!"#go,#rust")).bind
        (fun s => sayRun sayEnvEx s [.loop, .loop, .take, .written, .take, .written])).getD
      ⟨sayMsgEx [], [], [], 0, [], [], none, [], false⟩)
    ⟨by decide, by decide, by decide, _, [.loop, .loop, .take, .written, .take, .written], rfl, by decide +kernel⟩
    ⟨⟨false, true, true⟩, .rfc1459, ⟨b!"ann", b!"ann", b!"host"⟩, b!"annacc"⟩ ⟨rfl, rfl⟩ rfl rfl
  exact absurd h1 (by decide +kernel)

/-- What one would expect of copies for other clients: the label is between the bouncer and the server. -/
def SayLabelsStay : Prop := ∀ env n msg targets st, SayReaches env n msg targets st →
  ∀ t m, .produced t m ∈ st.out → GoMap.get m.tags b!"label" = none

/-- C96: nor this one: the label is still in the map when it is copied for the clients and the log. -/
theorem C96_label_leak_violated : ¬ SayLabelsStay := by
  intro h
  have h1 := h sayEnvEx 3 (sayMsgEx b!"#go") [b!"#go"]
    (((sayStart 3 (sayMsgEx b!"#go")).bind (fun s => sayRun sayEnvEx s [.loop])).getD
      ⟨sayMsgEx [], [], [], 0, [], [], none, [], false⟩)
    ⟨by decide, by decide, by decide, _, [.loop], rfl, by decide +kernel⟩
    b!"#go" ⟨[(b!"+react", b!"x"), (b!"label", b!"sd-7-3"), (b!"time", b!"2024-01-01T00:00:00.000Z"),
            (b!"account", b!"annacc")], some ⟨b!"ann", b!"ann", b!"host"⟩, b!"PRIVMSG", [b!"#go", b!"hi"]⟩
    (by decide +kernel)
  exact absurd h1 (by decide +kernel)

end Verif.Props
