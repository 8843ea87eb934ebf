import Verif.Model.DebugLog
import Verif.Proof.Util
import Mathlib.Data.List.Perm.Basic

/-! # C121: what is in the log -/

namespace Verif.Props
open Verif.Model Verif.Proof

/-- The log is kept, and a line that is added is one of these. -/
private inductive Added (sv : Nat → Bool) (st : LgState) : LgOp → LgLine → Prop
  | early (c m res) : st.debug = true → c ∉ st.closed → Added sv st (.early c m res) (.received c m)
  | earlyUnhandled (c m) : st.debug = true → c ∉ st.closed → Added sv st (.early c m .unknown) (.unhandled c m)
  | earlyFailed (c m) : c ∉ st.closed → Added sv st (.early c m .error) (.failed c m)
  | earlySkipped (c m) : sv c = true → c ∉ st.closed → Added sv st (.early c m .skipped) (.skipping c m)
  | recv (c m) : st.debug = true → c ∉ st.closed → Added sv st (.recv c m) (.received c m)
  | ignored (i res c m) : st.events[i]? = some (c, m) → c ∈ st.closed → Added sv st (.handle i res) (.ignored c m)
  | unhandled (i c m) : st.debug = true → st.events[i]? = some (c, m) → c ∉ st.closed → Added sv st (.handle i .unknown) (.unhandled c m)
  | skipped (i c m) : sv c = true → st.events[i]? = some (c, m) → c ∉ st.closed → Added sv st (.handle i .skipped) (.skipping c m)
  | failed (i c m) : st.events[i]? = some (c, m) → c ∉ st.closed → Added sv st (.handle i .error) (.failed c m)
  | sent (i ok c m) : st.debug = true → st.queue[i]? = some (c, m) → Added sv st (.write i ok) (.sent c m)

private def when (b : Bool) (l : LgLine) : List LgLine := if b then [l] else []

private theorem debugf_eq (st : LgState) (l : LgLine) : lgDebugf st l = { st with log := st.log ++ when st.debug l } := by
  unfold lgDebugf when
  split <;> simp

private theorem read_eq (sv : Nat → Bool) (st : LgState) (c : Nat) (m : Msg) : lgRead sv st c m =
    { st with
      log := st.log ++ when st.debug (.received c m)
      inTotal := st.inTotal + if sv c then 0 else 1
      srvIn := st.srvIn + if sv c then 1 else 0 } := by
  unfold lgRead lgCountIn
  rw [debugf_eq]
  split <;> rfl

private theorem countOut_eq (sv : Nat → Bool) (st : LgState) (c : Nat) : lgCountOut sv st c =
    { st with
      outTotal := st.outTotal + if sv c then 0 else 1
      srvOut := st.srvOut + if sv c then 1 else 0 } := by
  unfold lgCountOut
  split <;> rfl

/-- The lines for a message that is handled. -/
private def handleLines (sv : Nat → Bool) (d : Bool) (c : Nat) (m : Msg) : LgResult → List LgLine
  | .done => []
  | .unknown => when d (.unhandled c m)
  | .skipped => when (sv c) (.skipping c m)
  | .error => [.failed c m]

private theorem handle_eq (sv : Nat → Bool) (st : LgState) (c : Nat) (m : Msg) (cl : Bool) (res : LgResult) :
    lgHandle sv st c m cl res =
    { st with
      log := st.log ++ handleLines sv st.debug c m res
      closed := if res = .error ∧ cl = true then (lgClose st c).closed else st.closed } := by
  cases res with
  | done => simp [lgHandle, handleLines]
  | unknown => simp [lgHandle, handleLines, debugf_eq]
  | skipped => unfold lgHandle handleLines when; simp only; split <;> simp [lgPrintf]
  | error =>
    cases cl with
    | false => simp [lgHandle, handleLines, lgPrintf]
    | true => rfl

private theorem mem_when {b : Bool} {l x : LgLine} : x ∈ when b l ↔ b = true ∧ x = l := by
  unfold when
  split <;> simp_all

private theorem step_log (sv : Nat → Bool) (st : LgState) (op : LgOp) :
    ∃ new, (lgStep sv st op).log = st.log ++ new ∧ ∀ l ∈ new, Added sv st op l := by
  cases op with
  | debug params =>
    refine ⟨[], ?_, by simp⟩
    unfold lgStep
    simp only
    split <;> simp
  | early c m res =>
    simp only [lgStep]
    split
    · exact ⟨[], by simp, by simp⟩
    · rename_i hc
      refine ⟨when st.debug (.received c m) ++ handleLines sv st.debug c m res, ?_, ?_⟩
      · rw [handle_eq, read_eq]
        simp only [List.append_assoc]
      · intro l hl
        rw [List.mem_append, mem_when] at hl
        rcases hl with ⟨hd, rfl⟩ | hl
        · exact .early c m _ hd hc
        · cases res with
          | done => cases hl
          | unknown => obtain ⟨hd, rfl⟩ := mem_when.1 hl; exact .earlyUnhandled c m hd hc
          | skipped => obtain ⟨hd, rfl⟩ := mem_when.1 hl; exact .earlySkipped c m hd hc
          | error =>
            simp only [handleLines, List.mem_singleton] at hl
            subst hl
            exact .earlyFailed c m hc
  | recv c m =>
    simp only [lgStep]
    split
    · exact ⟨[], by simp, by simp⟩
    · rename_i hc
      refine ⟨when st.debug (.received c m), by rw [read_eq], ?_⟩
      intro l hl
      obtain ⟨hd, rfl⟩ := mem_when.1 hl
      exact .recv c m hd hc
  | handle i res =>
    simp only [lgStep]
    split
    · exact ⟨[], by simp, by simp⟩
    · rename_i c m he
      split
      · rename_i hc
        exact ⟨[.ignored c m], by simp [lgPrintf], by simp; exact .ignored i res c m he hc⟩
      · rename_i hc
        refine ⟨handleLines sv st.debug c m res, by rw [handle_eq], ?_⟩
        intro l hl
        cases res with
        | done => cases hl
        | unknown => obtain ⟨hd, rfl⟩ := mem_when.1 hl; exact .unhandled i c m hd he hc
        | skipped => obtain ⟨hd, rfl⟩ := mem_when.1 hl; exact .skipped i c m hd he hc
        | error =>
          simp only [handleLines, List.mem_singleton] at hl
          subst hl
          exact .failed i c m he hc
  | send c m room =>
    refine ⟨[], ?_, by simp⟩
    simp only [lgStep, countOut_eq]
    split <;> simp
  | write i ok =>
    simp only [lgStep]
    split
    · exact ⟨[], by simp, by simp⟩
    · rename_i c m he
      refine ⟨when st.debug (.sent c m), ?_, ?_⟩
      · rw [debugf_eq]
        split <;> rfl
      · intro l hl
        obtain ⟨hd, rfl⟩ := mem_when.1 hl
        exact .sent i ok c m hd he
  | close c => exact ⟨[], by simp [lgStep, lgClose], by simp⟩

private theorem run_snoc (sv : Nat → Bool) (d : Bool) (ops : List LgOp) (op : LgOp) : lgRun sv d (ops ++ [op]) = lgStep sv (lgRun sv d ops) op := by
  unfold lgRun
  rw [List.foldl_append]
  rfl

/-- A line in the log was added by some step. -/
private theorem line_from (sv : Nat → Bool) (d : Bool) (ops : List LgOp) (l : LgLine) (h : l ∈ (lgRun sv d ops).log) :
    ∃ pre op post, ops = pre ++ op :: post ∧ Added sv (lgRun sv d pre) op l := by
  induction ops using snocInd with
  | nil => simp [lgRun, lgInit] at h
  | snoc ops op ih =>
    rw [run_snoc] at h
    obtain ⟨new, e, hn⟩ := step_log sv (lgRun sv d ops) op
    rw [e, List.mem_append] at h
    rcases h with h | h
    · obtain ⟨pre, op', post, e', ha⟩ := ih h
      exact ⟨pre, op', post ++ [op], by rw [e']; simp, ha⟩
    · exact ⟨ops, op, [], rfl, hn l h⟩

private theorem step_debug (sv : Nat → Bool) (st : LgState) (op : LgOp) :
    (lgStep sv st op).debug = match op with
      | .debug params => (lgDebugArg params).getD st.debug
      | _ => st.debug := by
  cases op with
  | debug params => simp only [lgStep]; cases lgDebugArg params <;> rfl
  | early c m res =>
    simp only [lgStep]
    split
    · rfl
    · rw [handle_eq, read_eq]
  | recv c m =>
    simp only [lgStep]
    split
    · rfl
    · rw [read_eq]
  | handle i res =>
    simp only [lgStep]
    split
    · rfl
    · split
      · rfl
      · rw [handle_eq]
  | send c m room => simp only [lgStep, countOut_eq]; split <;> rfl
  | write i ok =>
    simp only [lgStep, debugf_eq]
    split
    · rfl
    · split <;> rfl
  | close c => rfl

/-- An accepted `server debug` with this value: exactly one word, and it stands for the value. -/
def LgSwitch (b : Bool) (op : LgOp) : Prop := ∃ p, op = .debug [p] ∧ parseBool p = some b

private theorem arg_iff (params : List Str) (b : Bool) :
    lgDebugArg params = some b ↔ LgSwitch b (.debug params) := by
  unfold lgDebugArg LgSwitch
  constructor
  · intro h
    split at h
    · rename_i p
      exact ⟨p, rfl, h⟩
    · cases h
  · rintro ⟨p, e, h⟩
    cases e
    exact h

/-- C121: the value of debugging is the one given last with `server debug`, or the one of `-debug` if there was none. -/
theorem C121_switch (sv : Nat → Bool) (d : Bool) (ops : List LgOp) (b : Bool) : (lgRun sv d ops).debug = b ↔
    (∃ pre op post, ops = pre ++ op :: post ∧ LgSwitch b op ∧ ∀ x ∈ post, ∀ v, ¬ LgSwitch v x) ∨
    (d = b ∧ ∀ x ∈ ops, ∀ v, ¬ LgSwitch v x) := by
  induction ops using snocInd with
  | nil => simp [lgRun, lgInit]
  | snoc ops op ih =>
    rw [run_snoc, step_debug]
    by_cases hs : ∃ v, LgSwitch v op
    · obtain ⟨v, hv⟩ := hs
      obtain ⟨p, rfl, hp⟩ := hv
      have ha : lgDebugArg [p] = some v := hp
      simp only [ha, Option.getD_some]
      constructor
      · rintro rfl
        exact .inl ⟨ops, _, [], rfl, ⟨p, rfl, hp⟩, by simp⟩
      · rintro (⟨pre, op', post, e, hw, hno⟩ | ⟨_, hno⟩)
        · rcases List.eq_nil_or_concat post with rfl | ⟨post', y, rfl⟩
          · have := List.append_inj' e rfl
            have e2 := (List.cons.inj this.2).1
            rw [← e2] at hw
            obtain ⟨q, eq, hq⟩ := hw
            cases eq
            rw [hp] at hq
            exact Option.some.inj hq
          · rw [List.concat_eq_append, ← List.cons_append, ← List.append_assoc] at e
            have := List.append_inj' e rfl
            have e2 := (List.cons.inj this.2).1
            exact absurd ⟨p, e2.symm, hp⟩ (hno y (by simp) v)
        · exact absurd ⟨p, rfl, hp⟩ (hno _ (by simp) v)
    · have hkeep : (lgStep sv (lgRun sv d ops) op).debug = (lgRun sv d ops).debug := by
        rw [step_debug]
        cases op with
        | debug params =>
          cases ha : lgDebugArg params with
          | none => simp [ha]
          | some v => exact absurd ⟨v, (arg_iff params v).1 ha⟩ hs
        | _ => rfl
      rw [← step_debug, hkeep, ih]
      have hno : ∀ v, ¬ LgSwitch v op := fun v hv => hs ⟨v, hv⟩
      constructor
      · rintro (⟨pre, op', post, rfl, hw, hn⟩ | ⟨rfl, hn⟩)
        · refine .inl ⟨pre, op', post ++ [op], by simp, hw, ?_⟩
          intro x hx v
          rw [List.mem_append, List.mem_singleton] at hx
          rcases hx with hx | rfl
          · exact hn x hx v
          · exact hno v
        · refine .inr ⟨rfl, ?_⟩
          intro x hx v
          rw [List.mem_append, List.mem_singleton] at hx
          rcases hx with hx | rfl
          · exact hn x hx v
          · exact hno v
      · rintro (⟨pre, op', post, e, hw, hn⟩ | ⟨rfl, hn⟩)
        · rcases List.eq_nil_or_concat post with rfl | ⟨post', y, rfl⟩
          · have := List.append_inj' e rfl
            rw [← (List.cons.inj this.2).1] at hw
            exact absurd hw (hno b)
          · rw [List.concat_eq_append, ← List.cons_append, ← List.append_assoc] at e
            have := List.append_inj' e rfl
            exact .inl ⟨pre, op', post', this.1, hw, fun x hx => hn x (by simp [hx])⟩
        · exact .inr ⟨rfl, fun x hx => hn x (by simp [hx])⟩

/-- C121: a client's message is written to the log as received, or a message to a client as sent, only while debugging
is on. -/
theorem C121_debug (sv : Nat → Bool) (d : Bool) (ops : List LgOp) (c : Nat) (m : Msg) :
    (.received c m ∈ (lgRun sv d ops).log → ∃ pre op post, ops = pre ++ op :: post ∧ (lgRun sv d pre).debug = true ∧
      (op = .recv c m ∨ ∃ res, op = .early c m res)) ∧
    (.sent c m ∈ (lgRun sv d ops).log → ∃ pre i ok post, ops = pre ++ .write i ok :: post ∧ (lgRun sv d pre).debug = true ∧
      (lgRun sv d pre).queue[i]? = some (c, m)) ∧
    (.unhandled c m ∈ (lgRun sv d ops).log → ∃ pre op post, ops = pre ++ op :: post ∧ (lgRun sv d pre).debug = true ∧
      (op = .early c m .unknown ∨ ∃ i, op = .handle i .unknown ∧ (lgRun sv d pre).events[i]? = some (c, m))) := by
  refine ⟨fun h => ?_, fun h => ?_, fun h => ?_⟩
  · obtain ⟨pre, op, post, e, ha⟩ := line_from sv d ops _ h
    cases ha with
    | early _ _ res hd _ => exact ⟨pre, _, post, e, hd, .inr ⟨res, rfl⟩⟩
    | recv _ _ hd _ => exact ⟨pre, _, post, e, hd, .inl rfl⟩
  · obtain ⟨pre, op, post, e, ha⟩ := line_from sv d ops _ h
    cases ha with
    | sent i ok _ _ hd hq => exact ⟨pre, i, ok, post, e, hd, hq⟩
  · obtain ⟨pre, op, post, e, ha⟩ := line_from sv d ops _ h
    cases ha with
    | earlyUnhandled _ _ hd _ => exact ⟨pre, _, post, e, hd, .inl rfl⟩
    | unhandled i _ _ hd he _ => exact ⟨pre, _, post, e, hd, .inr ⟨i, rfl, he⟩⟩

private theorem log_grows (sv : Nat → Bool) (d : Bool) (pre post : List LgOp) : (lgRun sv d pre).log <+: (lgRun sv d (pre ++ post)).log := by
  induction post using snocInd with
  | nil => rw [List.append_nil]; exact List.prefix_refl _
  | snoc post op ih =>
    rw [← List.append_assoc, run_snoc]
    obtain ⟨new, e, _⟩ := step_log sv (lgRun sv d (pre ++ post)) op
    rw [e]
    exact ih.trans (List.prefix_append _ _)

/-- C121: while debugging is on, everything clients say and are sent is in the log. -/
theorem C121_complete (sv : Nat → Bool) (d : Bool) (pre post : List LgOp) (hd : (lgRun sv d pre).debug = true) (c : Nat) (m : Msg) :
    (c ∉ (lgRun sv d pre).closed → .received c m ∈ (lgRun sv d (pre ++ .recv c m :: post)).log) ∧
    (c ∉ (lgRun sv d pre).closed → ∀ res, .received c m ∈ (lgRun sv d (pre ++ .early c m res :: post)).log) ∧
    (∀ i ok, (lgRun sv d pre).queue[i]? = some (c, m) → .sent c m ∈ (lgRun sv d (pre ++ .write i ok :: post)).log) := by
  have hadd : ∀ op l, l ∈ (lgStep sv (lgRun sv d pre) op).log → l ∈ (lgRun sv d (pre ++ op :: post)).log := by
    intro op l hl
    have := log_grows sv d (pre ++ [op]) post
    rw [run_snoc, List.append_assoc] at this
    exact this.subset hl
  refine ⟨fun hc => hadd _ _ ?_, fun hc res => hadd _ _ ?_, fun i ok hq => hadd _ _ ?_⟩
  · simp only [lgStep, if_neg hc, read_eq, List.mem_append, mem_when]
    exact .inr ⟨hd, trivial⟩
  · simp only [lgStep, if_neg hc, handle_eq, read_eq, List.mem_append, mem_when]
    exact .inl (.inr ⟨hd, trivial⟩)
  · simp only [lgStep, hq, debugf_eq]
    split <;> simp [lgClose, mem_when, hd]

/-- C121: if debugging was never on, nothing that was sent is in the log, and a message that was received is only there
if it could not be handled, if a server said it was from or for the service, or if its connection was closed before it
was handled.  Missing: the latter two (`C121_quiet_violated`, `C121_skipped_violated`). -/
theorem C121_quiet_partial (sv : Nat → Bool) (ops : List LgOp) (hoff : ∀ x ∈ ops, ¬ LgSwitch true x) (l : LgLine) (h : l ∈ (lgRun sv false ops).log) :
    ∃ pre op post c m, ops = pre ++ op :: post ∧
      ((l = .ignored c m ∧ c ∈ (lgRun sv false pre).closed ∧ ∃ i res, op = .handle i res ∧ (lgRun sv false pre).events[i]? = some (c, m)) ∨
       (l = .skipping c m ∧ sv c = true ∧ (op = .early c m .skipped ∨
          ∃ i, op = .handle i .skipped ∧ (lgRun sv false pre).events[i]? = some (c, m))) ∨
       (l = .failed c m ∧ c ∉ (lgRun sv false pre).closed ∧ (op = .early c m .error ∨
          ∃ i, op = .handle i .error ∧ (lgRun sv false pre).events[i]? = some (c, m)))) := by
  obtain ⟨pre, op, post, e, ha⟩ := line_from sv false ops l h
  have hd : (lgRun sv false pre).debug ≠ true := by
    intro hd
    rw [C121_switch] at hd
    rcases hd with ⟨p, x, q, e', hx, _⟩ | ⟨hf, _⟩
    · exact hoff x (by rw [e, e']; simp) hx
    · cases hf
  cases ha with
  | early _ _ _ hx => exact absurd hx hd
  | earlyUnhandled _ _ hx => exact absurd hx hd
  | earlyFailed c m hc => exact ⟨pre, _, post, c, m, e, .inr (.inr ⟨rfl, hc, .inl rfl⟩)⟩
  | earlySkipped c m hs _ => exact ⟨pre, _, post, c, m, e, .inr (.inl ⟨rfl, hs, .inl rfl⟩)⟩
  | recv _ _ hx => exact absurd hx hd
  | ignored i res c m he hc => exact ⟨pre, _, post, c, m, e, .inl ⟨rfl, hc, i, res, rfl, he⟩⟩
  | unhandled _ _ _ hx => exact absurd hx hd
  | skipped i c m hs he _ => exact ⟨pre, _, post, c, m, e, .inr (.inl ⟨rfl, hs, .inr ⟨i, rfl, he⟩⟩)⟩
  | failed i c m he hc => exact ⟨pre, _, post, c, m, e, .inr (.inr ⟨rfl, hc, .inr ⟨i, rfl, he⟩⟩)⟩
  | sent _ _ _ _ hx => exact absurd hx hd

private def identify : Msg := ⟨b!"PRIVMSG", [b!"NickServ", b!"IDENTIFY hunter2"]⟩

/-- C121 is violated: debugging is never on, and the password a user sends to a service of the network is written to the
log, because the client hung up before the message was handled. -/
theorem C121_quiet_violated : ∃ ops : List LgOp, (∀ x ∈ ops, ∀ params, x ≠ .debug params) ∧
    LgLine.ignored 1 ⟨b!"PRIVMSG", [b!"NickServ", b!"IDENTIFY hunter2"]⟩ ∈ (lgRun (fun _ => false) false ops).log :=
  ⟨[.recv 1 identify, .close 1, .handle 0 .done], by simp, by decide⟩

/-- C121 is violated: debugging is never on, and what somebody on the network sends to a user whose nick there is that of
the service is written to the log. -/
theorem C121_skipped_violated : ∃ ops : List LgOp, (∀ x ∈ ops, ∀ params, x ≠ .debug params) ∧
    LgLine.skipping 1 ⟨b!"PRIVMSG", [b!"BouncerServ", b!"the code is 1234"]⟩ ∈ (lgRun (fun _ => true) false ops).log :=
  ⟨[.recv 1 ⟨b!"PRIVMSG", [b!"BouncerServ", b!"the code is 1234"]⟩, .handle 0 .skipped], by simp, by decide⟩

/-- The lines of the log that say that a message was received, on connections of one kind. -/
def lgReceivedLines (kind : Nat → Bool) (log : List LgLine) : Nat :=
  log.countP (fun l => match l with | .received c _ => kind c | _ => false)

private theorem lines_append (k : Nat → Bool) (a b : List LgLine) :
    lgReceivedLines k (a ++ b) = lgReceivedLines k a + lgReceivedLines k b := List.countP_append

private theorem lines_handle (sv k : Nat → Bool) (d : Bool) (c : Nat) (m : Msg) (res : LgResult) :
    lgReceivedLines k (handleLines sv d c m res) = 0 := by
  cases res <;> simp only [handleLines, when] <;> (repeat' split) <;> rfl

private theorem step_counts (sv : Nat → Bool) (st : LgState) (op : LgOp) (hd : st.debug = true)
    (h : st.inTotal = lgReceivedLines (fun c => !sv c) st.log ∧ st.srvIn = lgReceivedLines sv st.log) :
    (lgStep sv st op).inTotal = lgReceivedLines (fun c => !sv c) (lgStep sv st op).log ∧
    (lgStep sv st op).srvIn = lgReceivedLines sv (lgStep sv st op).log := by
  have hone : ∀ (k : Nat → Bool) c m, lgReceivedLines k (when true (.received c m)) = if k c then 1 else 0 := by
    intro k c m
    cases hk : k c <;> simp [lgReceivedLines, when, hk]
  have hone' : ∀ c, (if (!sv c) = true then 1 else 0) = if sv c = true then 0 else 1 := by
    intro c
    cases sv c <;> rfl
  cases op with
  | debug params => simp only [lgStep]; split <;> exact h
  | early c m res =>
    simp only [lgStep]
    split
    · exact h
    · simp only [handle_eq, read_eq, lines_append, lines_handle, hd, hone, hone', h.1, h.2, Nat.add_zero, and_self]
  | recv c m =>
    simp only [lgStep]
    split
    · exact h
    · simp only [read_eq, lines_append, hd, hone, hone', h.1, h.2, and_self]
  | handle i res =>
    simp only [lgStep]
    split
    · exact h
    · split
      · refine ⟨?_, ?_⟩ <;> simp only [lgPrintf, lines_append, h.1, h.2] <;> rfl
      · simp only [handle_eq, lines_append, lines_handle, h.1, h.2, Nat.add_zero, and_self]
  | send c m room => simp only [lgStep, countOut_eq]; split <;> exact h
  | write i ok =>
    simp only [lgStep]
    split
    · exact h
    · rw [debugf_eq]
      split <;> refine ⟨?_, ?_⟩ <;> simp only [lgClose, lines_append, hd, h.1, h.2] <;> rfl
  | close c => exact h

/-- C121: the numbers of messages received are those of the messages received from clients and from servers, as a log with
debugging shows. -/
theorem C121_in (sv : Nat → Bool) (ops : List LgOp) (hon : ∀ x ∈ ops, ¬ LgSwitch false x) :
    (lgRun sv true ops).inTotal = lgReceivedLines (fun c => !sv c) (lgRun sv true ops).log ∧
    (lgRun sv true ops).srvIn = lgReceivedLines sv (lgRun sv true ops).log := by
  induction ops using snocInd with
  | nil => exact ⟨rfl, rfl⟩
  | snoc ops op ih =>
    rw [run_snoc]
    refine step_counts sv _ _ ?_ (ih (fun x hx => hon x (by simp [hx])))
    cases hd : (lgRun sv true ops).debug with
    | true => rfl
    | false =>
      rw [C121_switch] at hd
      rcases hd with ⟨p, x, q, e, hx, _⟩ | ⟨hf, _⟩
      · exact absurd hx (hon x (by rw [e]; simp))
      · cases hf

/-- Alike but for debugging and the log. -/
private def Alike (a b : LgState) : Prop := ∃ d l, b = { a with debug := d, log := l }

private theorem alike_step (sv : Nat → Bool) {a b : LgState} (h : Alike a b) (op : LgOp) : Alike (lgStep sv a op) (lgStep sv b op) := by
  obtain ⟨d, lg, rfl⟩ := h
  cases op with
  | debug params => simp only [lgStep]; split <;> exact ⟨_, _, rfl⟩
  | early c m res =>
    simp only [lgStep, handle_eq, read_eq]
    split
    · exact ⟨_, _, rfl⟩
    · exact ⟨_, _, rfl⟩
  | recv c m =>
    simp only [lgStep, read_eq]
    split <;> exact ⟨_, _, rfl⟩
  | handle i res =>
    simp only [lgStep, handle_eq]
    split
    · exact ⟨_, _, rfl⟩
    · split <;> exact ⟨_, _, rfl⟩
  | send c m room => simp only [lgStep, countOut_eq]; split <;> exact ⟨_, _, rfl⟩
  | write i ok =>
    simp only [lgStep, debugf_eq]
    split
    · exact ⟨_, _, rfl⟩
    · split <;> exact ⟨_, _, rfl⟩
  | close c => exact ⟨_, _, rfl⟩

/-- C121: debugging changes nothing but the log: whether it is on at the start, the same messages are handled, waiting
and sent, and the numbers are the same. -/
theorem C121_harmless (sv : Nat → Bool) (d d' : Bool) (ops : List LgOp) :
    (lgRun sv d ops).events = (lgRun sv d' ops).events ∧ (lgRun sv d ops).queue = (lgRun sv d' ops).queue ∧
    (lgRun sv d ops).written = (lgRun sv d' ops).written ∧ (lgRun sv d ops).closed = (lgRun sv d' ops).closed ∧
    (lgRun sv d ops).inTotal = (lgRun sv d' ops).inTotal ∧ (lgRun sv d ops).outTotal = (lgRun sv d' ops).outTotal ∧
    (lgRun sv d ops).srvIn = (lgRun sv d' ops).srvIn ∧ (lgRun sv d ops).srvOut = (lgRun sv d' ops).srvOut := by
  have : Alike (lgRun sv d ops) (lgRun sv d' ops) := by
    induction ops using snocInd with
    | nil => exact ⟨d', [], rfl⟩
    | snoc ops op ih => rw [run_snoc, run_snoc]; exact alike_step sv ih op
  obtain ⟨_, _, e⟩ := this
  rw [e]
  exact ⟨rfl, rfl, rfl, rfl, rfl, rfl, rfl, rfl⟩

/-- The messages on connections of one kind. -/
def lgOn (kind : Nat → Bool) (l : List (Nat × Msg)) : Nat := l.countP (fun p => kind p.1)

private theorem on_snoc (k : Nat → Bool) (l : List (Nat × Msg)) (p : Nat × Msg) :
    lgOn k (l ++ [p]) = lgOn k l + if k p.1 then 1 else 0 := by
  unfold lgOn
  rw [List.countP_append, List.countP_singleton]

private theorem on_erase (k : Nat → Bool) (l : List (Nat × Msg)) (i : Nat) (p : Nat × Msg) (h : l[i]? = some p) :
    lgOn k l = lgOn k (l.eraseIdx i) + if k p.1 then 1 else 0 := by
  obtain ⟨hi, rfl⟩ := List.getElem?_eq_some_iff.1 h
  unfold lgOn
  rw [← (List.getElem_cons_eraseIdx_perm hi).countP_eq, List.countP_cons]

/-- C121: the numbers of messages sent to clients and to servers are not less than those of the messages they were sent or
will be sent.  Missing: equality, see `C121_out_violated`. -/
theorem C121_out_partial (sv : Nat → Bool) (d : Bool) (ops : List LgOp) :
    lgOn (fun c => !sv c) (lgRun sv d ops).written + lgOn (fun c => !sv c) (lgRun sv d ops).queue ≤ (lgRun sv d ops).outTotal ∧
    lgOn sv (lgRun sv d ops).written + lgOn sv (lgRun sv d ops).queue ≤ (lgRun sv d ops).srvOut := by
  induction ops using snocInd with
  | nil => exact ⟨Nat.le_refl _, Nat.le_refl _⟩
  | snoc ops op ih =>
    rw [run_snoc]
    generalize lgRun sv d ops = st at ih ⊢
    have hone' : ∀ c, (if (!sv c) = true then 1 else 0) = if sv c = true then 0 else 1 := by
      intro c
      cases sv c <;> rfl
    obtain ⟨h1, h2⟩ := ih
    cases op with
    | debug params => simp only [lgStep]; split <;> exact ⟨h1, h2⟩
    | early c m res =>
      simp only [lgStep, handle_eq, read_eq]
      split <;> exact ⟨h1, h2⟩
    | recv c m =>
      simp only [lgStep, read_eq]
      split <;> exact ⟨h1, h2⟩
    | handle i res =>
      simp only [lgStep, handle_eq]
      split
      · exact ⟨h1, h2⟩
      · split <;> exact ⟨h1, h2⟩
    | send c m room =>
      simp only [lgStep, countOut_eq]
      split
      · exact ⟨Nat.le_add_right_of_le h1, Nat.le_add_right_of_le h2⟩
      · simp only [on_snoc, hone']
        exact ⟨by omega, by omega⟩
    | write i ok =>
      simp only [lgStep, debugf_eq]
      split
      · exact ⟨h1, h2⟩
      · rename_i c m he
        have e1 := on_erase (fun c => !sv c) st.queue i _ he
        have e2 := on_erase sv st.queue i _ he
        split
        · simp only [on_snoc] at e1 e2 ⊢
          exact ⟨by omega, by omega⟩
        · simp only [lgClose]
          exact ⟨by omega, by omega⟩
    | close c => exact ⟨h1, h2⟩

/-- C121: what counts as sent was waiting, and its connection was open when it was written. -/
theorem C121_written (sv : Nat → Bool) (d : Bool) (ops : List LgOp) (c : Nat) (m : Msg) (h : (c, m) ∈ (lgRun sv d ops).written) :
    ∃ pre i post, ops = pre ++ .write i true :: post ∧ c ∉ (lgRun sv d pre).closed ∧ (lgRun sv d pre).queue[i]? = some (c, m) := by
  induction ops using snocInd with
  | nil => cases h
  | snoc ops op ih =>
    have keep : (c, m) ∈ (lgRun sv d ops).written → ∃ pre i post, ops ++ [op] = pre ++ .write i true :: post ∧
        c ∉ (lgRun sv d pre).closed ∧ (lgRun sv d pre).queue[i]? = some (c, m) := by
      intro h
      obtain ⟨pre, i, post, e, hh⟩ := ih h
      exact ⟨pre, i, post ++ [op], by rw [e]; simp, hh⟩
    rw [run_snoc] at h
    cases op with
    | debug params => simp only [lgStep] at h; split at h <;> exact keep h
    | early c' m' res => simp only [lgStep, handle_eq, read_eq] at h; split at h <;> exact keep h
    | recv c' m' => simp only [lgStep, read_eq] at h; split at h <;> exact keep h
    | handle i res =>
      simp only [lgStep, handle_eq] at h
      split at h
      · exact keep h
      · split at h <;> exact keep h
    | send c' m' room => simp only [lgStep, countOut_eq] at h; split at h <;> exact keep h
    | write i ok =>
      simp only [lgStep, debugf_eq] at h
      split at h
      · exact keep h
      · rename_i c' m' he
        split at h
        · rename_i hok
          rw [List.mem_append, List.mem_singleton] at h
          rcases h with h | h
          · exact keep h
          · cases h
            obtain ⟨rfl, hc⟩ := hok
            exact ⟨ops, i, [], rfl, hc, he⟩
        · exact keep h
    | close c' => exact keep h

/-- Nothing goes wrong with a connection in this step, and none is closed. -/
def LgSmooth : LgOp → Prop
  | .early _ _ res => res ≠ .error
  | .handle _ res => res ≠ .error
  | .send _ _ room => room = true
  | .write _ ok => ok = true
  | .close _ => False
  | _ => True

/-- C121: as long as no connection is closed and there is room in the queues, the numbers of messages sent are those of
the messages clients and servers were sent or will be sent. -/
theorem C121_out_open (sv : Nat → Bool) (d : Bool) (ops : List LgOp) (h : ∀ op ∈ ops, LgSmooth op) :
    lgOn (fun c => !sv c) (lgRun sv d ops).written + lgOn (fun c => !sv c) (lgRun sv d ops).queue = (lgRun sv d ops).outTotal ∧
    lgOn sv (lgRun sv d ops).written + lgOn sv (lgRun sv d ops).queue = (lgRun sv d ops).srvOut := by
  suffices hs : (lgRun sv d ops).closed = [] ∧
      lgOn (fun c => !sv c) (lgRun sv d ops).written + lgOn (fun c => !sv c) (lgRun sv d ops).queue = (lgRun sv d ops).outTotal ∧
      lgOn sv (lgRun sv d ops).written + lgOn sv (lgRun sv d ops).queue = (lgRun sv d ops).srvOut from hs.2
  induction ops using snocInd with
  | nil => exact ⟨rfl, rfl, rfl⟩
  | snoc ops op ih =>
    have ih := ih (fun x hx => h x (by simp [hx]))
    have hop := h op (by simp)
    rw [run_snoc]
    generalize lgRun sv d ops = st at ih ⊢
    have hone' : ∀ c, (if (!sv c) = true then 1 else 0) = if sv c = true then 0 else 1 := by
      intro c
      cases sv c <;> rfl
    obtain ⟨h0, h1, h2⟩ := ih
    cases op with
    | debug params => simp only [lgStep]; split <;> exact ⟨h0, h1, h2⟩
    | early c m res =>
      have hop : res ≠ .error := hop
      simp only [lgStep, handle_eq, read_eq, h0, List.not_mem_nil, if_false, hop, false_and]
      exact ⟨trivial, h1, h2⟩
    | recv c m =>
      simp only [lgStep, read_eq, h0, List.not_mem_nil, if_false]
      exact ⟨trivial, h1, h2⟩
    | handle i res =>
      have hop : res ≠ .error := hop
      simp only [lgStep, handle_eq, hop, false_and, if_false]
      split
      · exact ⟨h0, h1, h2⟩
      · simp only [h0, List.not_mem_nil, if_false]
        exact ⟨trivial, h1, h2⟩
    | send c m room =>
      have hr : room = true := hop
      subst hr
      simp only [lgStep, countOut_eq, h0, List.not_mem_nil, Bool.true_eq_false, or_self, if_false, on_snoc, hone']
      exact ⟨trivial, by omega, by omega⟩
    | write i ok =>
      have hr : ok = true := hop
      subst hr
      simp only [lgStep, debugf_eq]
      split
      · exact ⟨h0, h1, h2⟩
      · rename_i c m he
        have e1 := on_erase (fun c => !sv c) st.queue i _ he
        have e2 := on_erase sv st.queue i _ he
        simp only [h0, List.not_mem_nil, not_false_eq_true, and_self, if_true, on_snoc] at e1 e2 ⊢
        exact ⟨trivial, by omega, by omega⟩
    | close c => exact absurd hop (by simp [LgSmooth])

example : ∀ op ∈ [LgOp.recv 1 identify, .handle 0 .unknown, .send 1 identify true, .write 0 true], LgSmooth op := by
  simp [LgSmooth]

/-- C121 is violated for the number of messages sent to clients: a message for a client that has hung up is counted, and
never sent. -/
theorem C121_out_violated : ∃ ops : List LgOp, (lgRun (fun _ => false) false ops).outTotal = 1 ∧ (lgRun (fun _ => false) false ops).written = [] ∧
    (lgRun (fun _ => false) false ops).queue = [] :=
  ⟨[.close 1, .send 1 ⟨b!"PING", [b!"soju"]⟩ true], by decide⟩

example : LgSwitch true (.debug [b!"true"]) := ⟨_, rfl, by decide⟩
example : ¬ ∃ b, LgSwitch b (.debug [b!"yes"]) := by
  rintro ⟨b, p, e, h⟩
  cases e
  revert h
  cases b <;> decide
example : (lgRun (fun _ => false) false [.debug [b!"true"], .recv 1 identify, .handle 0 .done, .send 1 identify true, .write 0 true,
    .debug [b!"false"], .recv 1 identify]).log = [.received 1 identify, .sent 1 identify] := by decide
example : ∀ x ∈ [LgOp.recv 1 identify, .handle 0 .error], ¬ LgSwitch true x := by
  rintro x hx ⟨p, rfl, _⟩
  simp at hx

/-- C121: an error is not only logged: a client that causes one before it has logged in, or later, is disconnected, and so is a
server that has not let the bouncer in yet; nobody else is.  A server that causes one later is kept. -/
theorem C121_error (sv : Nat → Bool) (st : LgState) (c : Nat) (m : Msg) :
    (∀ c', c' ∈ (lgStep sv st (.early c m .error)).closed ↔ c' ∈ st.closed ∨ c' = c) ∧
    (∀ i, st.events[i]? = some (c, m) → ∀ c', c' ∈ (lgStep sv st (.handle i .error)).closed ↔
      c' ∈ st.closed ∨ (c' = c ∧ sv c = false)) := by
  have hr : (lgRead sv st c m).closed = st.closed := by
    unfold lgRead lgCountIn lgDebugf; split <;> split <;> rfl
  refine ⟨fun c' => ?_, fun i hi c' => ?_⟩
  · simp only [lgStep]
    split
    · rename_i h
      exact ⟨.inl, fun h' => h'.elim id (fun e => e ▸ h)⟩
    · rename_i h
      simp only [lgHandle, if_true, lgClose, lgPrintf, hr, if_neg h, List.mem_cons]
      exact or_comm
  · simp only [lgStep, hi]
    split
    · rename_i h
      exact ⟨.inl, fun h' => h'.elim id (fun e => e.1 ▸ h)⟩
    · rename_i h
      have h : c ∉ st.closed := h
      cases e : sv c
      · simp [lgHandle, lgClose, lgPrintf, h, or_comm]
      · simp [lgHandle, e, lgPrintf]

example : (lgStep (fun _ => false) (lgInit false) (.early 1 ⟨b!"NICK", []⟩ .error)).closed = [1] := by decide

end Verif.Props
