import Verif.Model.Reconnect
import Verif.Model.UserLoop
import Verif.Props.UpReg
import Verif.Proof.Util

/-! # C99: the bouncer keeps its networks connected -/

namespace Verif.Props
open Verif.Model Verif.Proof

/-! ## Specification -/

/-- The messages with which a server says that it will not accept the settings of the network: wrong password
(464), nick not allowed (432), or that an account is required. -/
def Permanent (m : Msg) : Prop :=
  m.command = b!"464" ∨ m.command = b!"432" ∨ (m.command = b!"FAIL" ∧ m.params[1]? = some b!"ACCOUNT_REQUIRED")

instance (m : Msg) : Decidable (Permanent m) := by unfold Permanent; infer_instance

/-- `st` is a state of a goroutine that was started at `t0` for an enabled network of an enabled account; the random
parts of the delays are below the limit. -/
def RcReach (parse : Str → Option Msg) (cf : RcConf) (t0 : Nat) (ops : List RcOp) (st : RcState) : Prop :=
  rcRun parse cf (rcInit cf t0) ops = some st ∧ RcOp.start false ∉ ops ∧
  ∀ r, RcOp.top r ∈ ops → cf.jitter = 0 ∨ r < cf.jitter

/-- It makes no further attempt: it has ended, or it ends as soon as the loop has taken its last event. -/
def GivenUp (st : RcState) : Prop := st.phase = .ended ∨ ∃ text, st.phase = .tellErr text false

/-- An attempt to connect. -/
def isTry : RcItem → Bool
  | .attempt _ => true
  | _ => false

/-- The time that passes in these steps. -/
def rcTicks : List RcOp → Nat
  | [] => 0
  | .tick d :: ops => d + rcTicks ops
  | _ :: ops => rcTicks ops

/-! ## The invariant -/

/-- The last attempt. -/
private def lastAttempt (log : List RcItem) : Option Nat :=
  log.foldl (fun a x => match x with | .attempt t => some t | _ => a) none

/-- The last attempt, unless the server has closed the connection since. -/
private def openTry (log : List RcItem) : Option Nat :=
  log.foldl (fun a x => match x with | .attempt t => some t | .closed => none | _ => a) none

private theorem lastAttempt_snoc (log : List RcItem) (x : RcItem) :
    lastAttempt (log ++ [x]) = match x with | .attempt t => some t | _ => lastAttempt log := by
  unfold lastAttempt; rw [List.foldl_append]; rfl

private theorem openTry_snoc (log : List RcItem) (x : RcItem) :
    openTry (log ++ [x]) = match x with | .attempt t => some t | .closed => none | _ => openTry log := by
  unfold openTry; rw [List.foldl_append]; rfl

private theorem openTry_last {log : List RcItem} {t : Nat} (h : openTry log = some t) : lastAttempt log = some t := by
  induction log using snocInd with
  | nil => cases h
  | snoc l x ih =>
    rw [openTry_snoc] at h; rw [lastAttempt_snoc]
    cases x <;> first | exact h | exact ih h | cases h

private structure RcInv (cf : RcConf) (st : RcState) : Prop where
  bmin : st.back.min = cf.min
  bmax : st.back.max = cf.max
  bjit : st.back.jitter = cf.jitter
  last : st.lastTry = lastAttempt st.log
  past : ∀ t, st.lastTry = some t → t ≤ st.now
  zero : st.back.n = 0 → openTry st.log = none
  gone : st.phase = .tellDisc none → openTry st.log = none
  sleep : ∀ u, st.phase = .sleep u → ∀ t, openTry st.log = some t → t + cf.min ≤ u
  due : ∀ u, st.phase = .sleep u → u ≤ st.now ∨ ∃ t, st.lastTry = some t ∧ u ≤ t + cf.max + cf.jitter
  pos : ∀ u, st.phase = .sleep u → st.back.n ≠ 0
  canc : st.cancelled = true → st.stopped = true
  unreg : ∀ ur, st.phase = .reg ur → ur.registered = false
  ended : st.phase = .ended → st.stopped = true ∨ ∃ m, st.log.getLast? = some (.refused m) ∧ Permanent m
  final : ∀ text, st.phase = .tellErr text false → ∃ m, st.log.getLast? = some (.refused m) ∧ Permanent m
  giveUp : ∀ m, st.log.getLast? = some (.refused m) → Permanent m → GivenUp st

private theorem next_bounds {b : Backoffer} (r : Nat) (h : b.n ≠ 0) (hm : b.min ≤ b.max)
    (hr : b.jitter = 0 ∨ r < b.jitter) : b.min ≤ (b.next r).2 ∧ (b.next r).2 ≤ b.max + b.jitter := by
  have h1 : b.min ≤ b.n * b.min := Nat.le_mul_of_pos_left _ (Nat.pos_of_ne_zero h)
  unfold Backoffer.next
  rw [if_neg h]
  by_cases h2 : b.n * b.min > b.max
  · simp only [if_pos h2]
    split <;> omega
  · simp only [if_neg h2]
    split <;> omega

private theorem next_n (b : Backoffer) (r : Nat) : (b.next r).1.n ≠ 0 := by
  unfold Backoffer.next
  by_cases h : b.n = 0
  · rw [if_pos h]; simp
  · rw [if_neg h]
    by_cases h2 : b.n * b.min > b.max
    · simp only [if_pos h2]; exact h
    · simp only [if_neg h2]; omega

private theorem next_conf (b : Backoffer) (r : Nat) :
    (b.next r).1.min = b.min ∧ (b.next r).1.max = b.max ∧ (b.next r).1.jitter = b.jitter := by
  unfold Backoffer.next
  by_cases h : b.n = 0
  · rw [if_pos h]; exact ⟨rfl, rfl, rfl⟩
  · rw [if_neg h]
    by_cases h2 : b.n * b.min > b.max
    · simp [if_pos h2]
    · simp [if_neg h2]

private theorem next_zero {b : Backoffer} (r : Nat) (h : b.n = 0) : (b.next r).2 = 0 := by
  unfold Backoffer.next; rw [if_pos h]

private theorem temporary_spec {m : Msg} {temp : Bool} (h : regTemporary m = some temp) :
    temp = false ↔ Permanent m := by
  unfold regTemporary at h
  by_cases h1 : m.command = b!"464" ∨ m.command = b!"432"
  · rw [if_pos h1] at h
    have := Option.some.inj h
    subst this
    exact ⟨fun _ => h1.elim .inl (fun h => .inr (.inl h)), fun _ => rfl⟩
  · rw [if_neg h1] at h
    by_cases h2 : m.command = b!"FAIL"
    · rw [if_pos h2] at h
      cases h3 : m.params[1]? with
      | none => rw [h3] at h; cases h
      | some c =>
        rw [h3] at h
        have := Option.some.inj h
        subst this
        unfold Permanent
        rw [h3]
        constructor
        · intro hf
          have : c = b!"ACCOUNT_REQUIRED" := by
            have := of_decide_eq_false hf
            exact Classical.not_not.1 this
          exact .inr (.inr ⟨h2, by rw [this]⟩)
        · rintro (h | h | ⟨_, h⟩)
          · exact absurd (.inl h) h1
          · exact absurd (.inr h) h1
          · exact decide_eq_false (fun hn => hn (Option.some.inj h))
    · rw [if_neg h2] at h
      have := Option.some.inj h
      subst this
      constructor
      · intro h; cases h
      · rintro (h | h | ⟨h, _⟩)
        · exact absurd (.inl h) h1
        · exact absurd (.inr h) h1
        · exact absurd h h2

private theorem temporary_total {m : Msg} (hr : isRegError m = true) : ∃ temp, regTemporary m = some temp := by
  unfold regTemporary
  by_cases h1 : m.command = b!"464" ∨ m.command = b!"432"
  · rw [if_pos h1]; exact ⟨_, rfl⟩
  · rw [if_neg h1]
    by_cases h2 : m.command = b!"FAIL"
    · rw [if_pos h2]
      have : 2 ≤ m.params.length := by
        unfold isRegError at hr
        rw [h2] at hr
        have h3 : decide ((b!"FAIL" : Str) = b!"433" ∧ 2 ≤ m.params.length) = false := decide_eq_false (by intro h; exact absurd h.1 (by decide))
        have h4 : decide ((b!"FAIL" : Str) ∈ registrationErrors) = false := by decide
        rw [h3, h4] at hr
        have : (b!"FAIL" : Str) = b!"FAIL" ∧ 2 ≤ m.params.length := of_decide_eq_true (by simpa using hr)
        exact this.2
      rw [List.getElem?_eq_getElem (by omega)]
      exact ⟨_, rfl⟩
    · rw [if_neg h2]; exact ⟨_, rfl⟩

private theorem init_inv (cf : RcConf) (t0 : Nat) : RcInv cf (rcInit cf t0) := by
  refine ⟨rfl, rfl, rfl, rfl, ?_, fun _ => rfl, ?_, ?_, ?_, ?_, ?_, ?_, ?_, ?_, ?_⟩ <;> intros <;> first | contradiction | (rename_i h; cases h)

/-- Phases about which there is nothing to say. -/
private def Quiet : RcPhase → Prop
  | .top | .dial | .tellConn | .reading | .tellDisc (some _) | .tellErr _ true => True
  | .reg ur => ur.registered = false
  | _ => False

/-- Items that are neither attempts nor reasons to change anything. -/
private def Neutral : RcItem → Prop
  | .attempt _ => False
  | .closed => False
  | .refused m => ¬ Permanent m
  | _ => True

private theorem quiet0 {cf : RcConf} {st : RcState} (h : RcInv cf st) (p : RcPhase) (sent : List Msg)
    (told : List (Option Str)) (hp : Quiet p) (hg : ¬ GivenUp st) :
    RcInv cf { st with phase := p, sent := sent, told := told } where
  bmin := h.bmin
  bmax := h.bmax
  bjit := h.bjit
  last := h.last
  past := h.past
  zero := h.zero
  gone := fun e => by subst e; cases hp
  sleep := fun u e => by subst e; cases hp
  due := fun u e => by subst e; cases hp
  pos := fun u e => by subst e; cases hp
  canc := h.canc
  unreg := fun ur e => by subst e; exact hp
  ended := fun e => by subst e; cases hp
  final := fun t e => by subst e; cases hp
  giveUp := fun m hm hpm => absurd (h.giveUp m hm hpm) hg

private theorem quiet1 {cf : RcConf} {st : RcState} (h : RcInv cf st) (p : RcPhase) (x : RcItem) (sent : List Msg)
    (hp : Quiet p) (hx : Neutral x) :
    RcInv cf { st with phase := p, log := st.log ++ [x], sent := sent } where
  bmin := h.bmin
  bmax := h.bmax
  bjit := h.bjit
  last := by
    show st.lastTry = lastAttempt (st.log ++ [x])
    rw [lastAttempt_snoc, h.last]
    cases x <;> first | rfl | cases hx
  past := h.past
  zero := fun e => by
    show openTry (st.log ++ [x]) = none
    have := h.zero e
    rw [openTry_snoc]
    cases x <;> first | exact this | cases hx
  gone := fun e => by subst e; cases hp
  sleep := fun u e => by subst e; cases hp
  due := fun u e => by subst e; cases hp
  pos := fun u e => by subst e; cases hp
  canc := h.canc
  unreg := fun ur e => by subst e; exact hp
  ended := fun e => by subst e; cases hp
  final := fun t e => by subst e; cases hp
  giveUp := fun m hm hpm => by
    have hm : (st.log ++ [x]).getLast? = some (.refused m) := hm
    rw [List.getLast?_concat] at hm
    have := Option.some.inj hm
    subst this
    exact absurd hpm hx

private theorem step_inv {parse : Str → Option Msg} {cf : RcConf} (hm : cf.min ≤ cf.max) {st st' : RcState} {op : RcOp}
    (h : RcInv cf st) (hs : rcStep parse cf st op = some st') (hon : op ≠ .start false)
    (hr : ∀ r, op = .top r → cf.jitter = 0 ∨ r < cf.jitter) : RcInv cf st' := by
  cases op with
  | tick d =>
    have := Option.some.inj hs; subst this
    exact ⟨h.bmin, h.bmax, h.bjit, h.last, fun t e => Nat.le_trans (h.past t e) (Nat.le_add_right _ _), h.zero, h.gone,
      h.sleep, fun u e => (h.due u e).imp (fun a => Nat.le_trans a (Nat.le_add_right _ _)) id, h.pos, h.canc, h.unreg, h.ended,
      h.final, h.giveUp⟩
  | stop =>
    have := Option.some.inj hs; subst this
    exact ⟨h.bmin, h.bmax, h.bjit, h.last, h.past, h.zero, h.gone, h.sleep, h.due, h.pos, fun _ => rfl, h.unreg,
      fun _ => .inl rfl, h.final, h.giveUp⟩
  | cancel =>
    simp only [rcStep] at hs
    by_cases h1 : st.stopped = true
    · rw [if_pos h1] at hs
      have := Option.some.inj hs; subst this
      exact ⟨h.bmin, h.bmax, h.bjit, h.last, h.past, h.zero, h.gone, h.sleep, h.due, h.pos, fun _ => h1, h.unreg,
        h.ended, h.final, h.giveUp⟩
    · rw [if_neg h1] at hs; cases hs
  | start on =>
    cases on with
    | false => exact absurd rfl hon
    | true =>
      cases hp : st.phase <;> simp only [rcStep, hp] at hs <;> try cases hs
      exact quiet0 h .top st.sent st.told trivial (by rintro (e | ⟨t, e⟩) <;> rw [hp] at e <;> cases e)
  | top r =>
    cases hp : st.phase <;> simp only [rcStep, hp] at hs <;> try cases hs
    have hng : ¬ GivenUp st := by rintro (e | ⟨t, e⟩) <;> rw [hp] at e <;> cases e
    by_cases h1 : st.stopped = true
    · rw [if_pos h1] at hs
      have := Option.some.inj hs; subst this
      exact ⟨h.bmin, h.bmax, h.bjit, h.last, h.past, h.zero, fun e => (by cases e), fun u e => (by cases e),
        fun u e => (by cases e), fun u e => (by cases e), h.canc, fun u e => (by cases e), fun _ => .inl h1, fun t e => (by cases e),
        fun m a b => absurd (h.giveUp m a b) hng⟩
    · rw [if_neg h1] at hs
      have := Option.some.inj hs; subst this
      have hc := next_conf st.back r
      refine ⟨hc.1.trans h.bmin, hc.2.1.trans h.bmax, hc.2.2.trans h.bjit, h.last, h.past,
        fun e => absurd e (next_n st.back r), fun e => (by cases e), ?_, ?_,
        fun _ _ => next_n st.back r, h.canc, fun u e => (by cases e), fun e => (by cases e), fun t e => (by cases e), fun m a b => absurd (h.giveUp m a b) hng⟩
      · intro u e t ht
        have := RcPhase.sleep.inj e; subst this
        have hl : st.lastTry = some t := h.last.trans (openTry_last ht)
        have hn : st.back.n ≠ 0 := by
          intro e
          have := h.zero e
          have ht : openTry st.log = some t := ht
          rw [this] at ht; cases ht
        have hb := (next_bounds r hn (by rw [h.bmin, h.bmax]; exact hm) (by rw [h.bjit]; exact hr r rfl)).1
        unfold rcUntil
        rw [hl]
        show t + cf.min ≤ Nat.max st.now (t + (st.back.next r).2)
        rw [h.bmin] at hb
        exact Nat.le_trans (Nat.add_le_add_left hb t) (Nat.le_max_right _ _)
      · intro u e
        have := RcPhase.sleep.inj e; subst this
        show rcUntil st (st.back.next r).2 ≤ st.now ∨ ∃ t, st.lastTry = some t ∧ rcUntil st (st.back.next r).2 ≤ t + cf.max + cf.jitter
        unfold rcUntil
        cases hl : st.lastTry with
        | none => exact .inl (Nat.le_refl _)
        | some t =>
          dsimp only
          have hd : (st.back.next r).2 ≤ cf.max + cf.jitter := by
            by_cases hn : st.back.n = 0
            · rw [next_zero r hn]; exact Nat.zero_le _
            · have := (next_bounds r hn (by rw [h.bmin, h.bmax]; exact hm) (by rw [h.bjit]; exact hr r rfl)).2
              rw [h.bmax, h.bjit] at this
              exact this
          by_cases hle : t + (st.back.next r).2 ≤ st.now
          · exact .inl (Nat.max_le.2 ⟨Nat.le_refl _, hle⟩)
          · refine .inr ⟨t, rfl, Nat.max_le.2 ⟨by omega, by omega⟩⟩
  | wake =>
    cases hp : st.phase <;> simp only [rcStep, hp] at hs <;> try cases hs
    rename_i u
    by_cases h1 : u ≤ st.now
    · rw [if_pos h1] at hs
      have := Option.some.inj hs; subst this
      refine ⟨h.bmin, h.bmax, h.bjit, (lastAttempt_snoc st.log (.attempt st.now)).symm, fun t e => ?_,
        fun e => absurd e (h.pos _ hp), fun e => (by cases e),
        fun u e => (by cases e), fun u e => (by cases e), fun u e => (by cases e), h.canc, fun u e => (by cases e), fun e => (by cases e),
        fun t e => (by cases e), fun m a b => ?_⟩
      · have := Option.some.inj e; subst this; exact Nat.le_refl _
      · have a : (st.log ++ [RcItem.attempt st.now]).getLast? = some (.refused m) := a
        rw [List.getLast?_concat] at a; cases a
    · rw [if_neg h1] at hs; cases hs
  | dialled =>
    cases hp : st.phase <;> simp only [rcStep, hp] at hs <;> try cases hs
    by_cases h1 : st.cancelled = true
    · rw [if_pos h1] at hs; cases hs
    · rw [if_neg h1] at hs
      have := Option.some.inj hs; subst this
      exact quiet0 h _ _ st.told (show Quiet (.reg _) from rfl) (by rintro (e | ⟨t, e⟩) <;> rw [hp] at e <;> cases e)
  | dialFailed text =>
    cases hp : st.phase <;> simp only [rcStep, hp] at hs <;> try cases hs
    exact quiet1 h _ _ st.sent trivial trivial
  | server ord m text =>
    cases hp : st.phase <;> simp only [rcStep, hp] at hs <;> try cases hs
    rename_i ur
    unfold rcServer at hs
    dsimp only at hs
    by_cases h1 : (upRegister cf.net ord ur m).2.2 = false
    · rw [if_pos h1] at hs
      unfold rcRefuse at hs
      by_cases h2 : isRegError m = true
      · rw [if_pos h2] at hs
        obtain ⟨temp, ht⟩ := temporary_total h2
        rw [ht] at hs
        have := Option.some.inj hs; subst this
        cases temp with
        | true =>
          exact quiet1 h _ _ _ trivial (fun hpm => by have := (temporary_spec ht).2 hpm; cases this)
        | false =>
          have hpm := (temporary_spec ht).1 rfl
          refine ⟨h.bmin, h.bmax, h.bjit, h.last.trans (lastAttempt_snoc st.log (.refused m)).symm, h.past,
            fun e => (openTry_snoc st.log (.refused m)).trans (h.zero e), fun e => (by cases e), fun u e => (by cases e),
            fun u e => (by cases e), fun u e => (by cases e), h.canc, fun u e => (by cases e), fun e => (by cases e),
            fun t e => ⟨m, ?_, hpm⟩, fun m a b => .inr ⟨_, rfl⟩⟩
          show (st.log ++ [RcItem.refused m]).getLast? = _
          rw [List.getLast?_concat]
      · rw [if_neg h2] at hs
        have := Option.some.inj hs; subst this
        exact quiet1 h _ _ _ trivial trivial
    · rw [if_neg h1] at hs
      by_cases h2 : (upRegister cf.net ord ur m).1.registered = true
      · rw [if_pos h2] at hs
        have := Option.some.inj hs; subst this
        exact quiet1 h _ _ _ trivial trivial
      · rw [if_neg h2] at hs
        have := Option.some.inj hs; subst this
        exact quiet0 h _ _ st.told (show Quiet (.reg _) from Bool.eq_false_iff.2 h2)
          (by rintro (e | ⟨t, e⟩) <;> rw [hp] at e <;> cases e)
  | lost text =>
    cases hp : st.phase <;> simp only [rcStep, hp] at hs <;> try cases hs
    · exact quiet1 h _ _ st.sent trivial trivial
    · exact quiet1 h _ _ st.sent trivial trivial
  | eof =>
    cases hp : st.phase <;> simp only [rcStep, hp] at hs <;> try cases hs
    refine ⟨h.bmin, h.bmax, h.bjit, h.last.trans (lastAttempt_snoc st.log .closed).symm, h.past,
      fun _ => openTry_snoc st.log .closed, fun _ => openTry_snoc st.log .closed, fun u e => (by cases e),
      fun u e => (by cases e), fun u e => (by cases e), h.canc, fun u e => (by cases e), fun e => (by cases e),
      fun t e => (by cases e), fun m a b => ?_⟩
    have a : (st.log ++ [RcItem.closed]).getLast? = some (.refused m) := a
    rw [List.getLast?_concat] at a; cases a
  | sent =>
    simp only [rcStep, rcSent] at hs
    cases hp : st.phase with
    | tellConn =>
      rw [hp] at hs
      have := Option.some.inj hs; subst this
      exact quiet0 h _ st.sent _ trivial (by rintro (e | ⟨t, e⟩) <;> rw [hp] at e <;> cases e)
    | tellDisc err =>
      have hng : ¬ GivenUp st := by rintro (e | ⟨t, e⟩) <;> rw [hp] at e <;> cases e
      rw [hp] at hs
      cases err with
      | none =>
        have := Option.some.inj hs; subst this
        exact ⟨h.bmin, h.bmax, h.bjit, h.last, h.past, fun _ => h.gone hp, fun e => (by cases e), fun u e => (by cases e),
          fun u e => (by cases e), fun u e => (by cases e), h.canc, fun u e => (by cases e), fun e => (by cases e),
          fun t e => (by cases e), fun m a b => absurd (h.giveUp m a b) hng⟩
      | some text =>
        have := Option.some.inj hs; subst this
        exact quiet0 h _ st.sent st.told trivial hng
    | tellErr text temp =>
      rw [hp] at hs
      have := Option.some.inj hs; subst this
      cases temp with
      | true => exact quiet0 h _ st.sent _ trivial (by rintro (e | ⟨t, e⟩) <;> rw [hp] at e <;> cases e)
      | false =>
        exact ⟨h.bmin, h.bmax, h.bjit, h.last, h.past, h.zero, fun e => (by cases e), fun u e => (by cases e),
          fun u e => (by cases e), fun u e => (by cases e), h.canc, fun u e => (by cases e), fun _ => .inr (h.final _ hp),
          fun t e => (by cases e), fun m a b => .inl rfl⟩
    | _ => rw [hp] at hs; cases hs

private theorem run_inv {parse : Str → Option Msg} {cf : RcConf} (hm : cf.min ≤ cf.max) {ops : List RcOp} {st st' : RcState}
    (h : RcInv cf st) (hs : rcRun parse cf st ops = some st') (hon : RcOp.start false ∉ ops)
    (hr : ∀ r, RcOp.top r ∈ ops → cf.jitter = 0 ∨ r < cf.jitter) : RcInv cf st' := by
  induction ops generalizing st with
  | nil => have := Option.some.inj hs; subst this; exact h
  | cons op ops ih =>
    unfold rcRun at hs
    cases h1 : rcStep parse cf st op with
    | none => rw [h1] at hs; cases hs
    | some st1 =>
      rw [h1] at hs
      refine ih (step_inv hm h h1 (fun e => hon (by rw [e]; exact List.mem_cons_self))
        (fun r e => hr r (by rw [e]; exact List.mem_cons_self))) hs (fun e => hon (List.mem_cons_of_mem _ e))
        (fun r e => hr r (List.mem_cons_of_mem _ e))

private theorem reach_inv {parse : Str → Option Msg} {cf : RcConf} (hm : cf.min ≤ cf.max) {t0 : Nat} {ops : List RcOp}
    {st : RcState} (h : RcReach parse cf t0 ops st) : RcInv cf st :=
  run_inv hm (init_inv cf t0) h.1 h.2.1 h.2.2

/-! ## It keeps trying -/

/-- C99: as long as the network is enabled and not removed, its goroutine goes on; it gives up just if the last thing
that happened is that the server refused the registration for a reason that does not go away by itself. -/
theorem C99_keeps_trying {parse : Str → Option Msg} {cf : RcConf} (hm : cf.min ≤ cf.max) {t0 : Nat} {ops : List RcOp}
    {st : RcState} (h : RcReach parse cf t0 ops st) (hs : st.stopped = false) :
    GivenUp st ↔ ∃ m, st.log.getLast? = some (.refused m) ∧ Permanent m := by
  have hi := reach_inv hm h
  constructor
  · rintro (e | ⟨t, e⟩)
    · exact (hi.ended e).resolve_left (by rw [hs]; exact Bool.false_ne_true)
    · exact hi.final t e
  · rintro ⟨m, a, b⟩; exact hi.giveUp m a b

/-- A network with the usual delays. -/
private def rcCfg : RcConf :=
  { net := { nick := b!"alice", username := b!"alice", realname := b!"Alice", pass := [], mech := [], user := [], password := [] },
    commands := [b!"MODE alice +i"], min := 60, max := 600, jitter := 60 }

/-- The server is not there, then it refuses the connection for the moment, then because of the password. -/
private def rcOps : List RcOp :=
  [.start true, .top 0, .wake, .dialFailed b!"refused", .sent, .top 7, .tick 67, .wake, .dialled,
   .server [] ⟨b!"465", [b!"*", b!"banned"]⟩ [], .sent, .top 3, .tick 200, .wake, .dialled,
   .server [] ⟨b!"464", [b!"*", b!"wrong password"]⟩ [], .sent]

example : ∃ st, RcReach (fun _ => none) rcCfg 5 rcOps st ∧ st.stopped = false ∧ st.phase = .ended ∧
    st.log = [.attempt 5, .failed b!"refused", .attempt 72, .refused ⟨b!"465", [b!"*", b!"banned"]⟩, .attempt 272,
      .refused ⟨b!"464", [b!"*", b!"wrong password"]⟩] := by
  refine ⟨_, ⟨rfl, by decide, ?_⟩, ?_, ?_, ?_⟩
  · intro r hr
    right
    simp [rcOps] at hr
    show r < 60
    omega
  · decide
  · decide
  · decide

private theorem givenUp_step {parse : Str → Option Msg} {cf : RcConf} {st st' : RcState} {op : RcOp} (h : GivenUp st)
    (hs : rcStep parse cf st op = some st') : GivenUp st' ∧ st'.log = st.log := by
  rcases h with h | ⟨t, h⟩
  · cases op <;> simp only [rcStep, rcSent, h] at hs <;> first
      | (have := Option.some.inj hs; subst this; exact ⟨.inl rfl, rfl⟩)
      | (by_cases h1 : st.stopped = true
         · rw [if_pos h1] at hs; have := Option.some.inj hs; subst this; exact ⟨.inl rfl, rfl⟩
         · rw [if_neg h1] at hs; cases hs)
      | cases hs
  · cases op <;> simp only [rcStep, rcSent, h] at hs <;> first
      | (have := Option.some.inj hs; subst this; exact ⟨.inr ⟨t, rfl⟩, rfl⟩)
      | (have := Option.some.inj hs; subst this; exact ⟨.inl rfl, rfl⟩)
      | (by_cases h1 : st.stopped = true
         · rw [if_pos h1] at hs; have := Option.some.inj hs; subst this; exact ⟨.inr ⟨t, rfl⟩, rfl⟩
         · rw [if_neg h1] at hs; cases hs)
      | cases hs

/-- The refusals of a server that does not let the bouncer in: 464, 432, 436, 437, 463, 465, and the demand of an
account. -/
def TurnsAway (m : Msg) : Prop :=
  m.command ∈ [b!"432", b!"436", b!"437", b!"463", b!"464", b!"465"] ∨
    (m.command = b!"FAIL" ∧ ∃ l, m.params = b!"*" :: b!"ACCOUNT_REQUIRED" :: l)

/-- C99: when the server turns the bouncer away, the refusal is noted as the reason, and the bouncer gives up exactly if the
refusal is permanent. -/
theorem C99_turned_away {parse : Str → Option Msg} {cf : RcConf} (hm : cf.min ≤ cf.max) {t0 : Nat} {ops : List RcOp}
    {st : RcState} (h : RcReach parse cf t0 ops st) {ur : UrState} (hp : st.phase = .reg ur) (ord : List Str) (m : Msg)
    (text : Str) (ht : TurnsAway m) :
    ∃ st', rcStep parse cf st (.server ord m text) = some st' ∧ st'.log = st.log ++ [.refused m] ∧
      (GivenUp st' ↔ Permanent m) := by
  have hu : ur.registered = false := (reach_inv hm h).unreg ur hp
  have key : ∀ c ∈ [b!"432", b!"436", b!"437", b!"463", b!"464", b!"465"], c ≠ b!"CAP" ∧ c ≠ b!"AUTHENTICATE" ∧
      c ∉ saslEndNumerics ∧ c ≠ b!"001" ∧ c ≠ b!"433" ∧ c ∈ registrationErrors ∧ c ≠ b!"FAIL" := by decide +kernel
  have h1 : (upRegister cf.net ord ur m).2.2 = false := by
    rcases ht with hc | ⟨hc, l, hl⟩
    · obtain ⟨a1, a2, a3, a4, a5, a6, _⟩ := key _ hc
      simp only [upRegister, upRegOther, if_neg a1, if_neg a2, if_neg a3, if_neg a4, if_neg a5, if_pos a6, hu]
    · have a1 : m.command ≠ b!"CAP" := by rw [hc]; decide
      have a2 : m.command ≠ b!"AUTHENTICATE" := by rw [hc]; decide
      have a3 : m.command ∉ saslEndNumerics := by rw [hc]; decide
      have a4 : m.command ≠ b!"001" := by rw [hc]; decide
      have a5 : m.command ≠ b!"433" := by rw [hc]; decide
      have a6 : m.command ∉ registrationErrors := by rw [hc]; decide
      have a7 : ¬(m.command = b!"400" ∨ m.command = b!"421" ∨ m.command = b!"461" ∨ m.command = b!"263") := by rw [hc]; decide
      simp only [upRegister, upRegOther, if_neg a1, if_neg a2, if_neg a3, if_neg a4, if_neg a5, if_neg a6, if_neg a7, if_pos hc, hl, hu]
      decide
  have h2 : isRegError m = true := by
    unfold isRegError
    rcases ht with hc | ⟨hc, l, hl⟩
    · have := (key _ hc).2.2.2.2.2.1
      simp [this]
    · simp [hc, hl]
  obtain ⟨temp, h3⟩ := temporary_total h2
  have h4 := temporary_spec h3
  refine ⟨_, by simp only [rcStep, hp, rcServer, if_pos h1, rcRefuse, if_pos h2, h3]; rfl, rfl, ?_⟩
  rw [← h4]
  constructor
  · rintro (e | ⟨t, e⟩)
    · cases e
    · simp only [RcPhase.tellErr.injEq] at e; exact e.2
  · intro e; exact .inr ⟨_, by rw [e]⟩

/-- C99: once it has given up, there is no further attempt. -/
theorem C99_gives_up {parse : Str → Option Msg} {cf : RcConf} {ops : List RcOp} {st st' : RcState} (h : GivenUp st)
    (hs : rcRun parse cf st ops = some st') : GivenUp st' ∧ st'.log = st.log := by
  induction ops generalizing st with
  | nil => have := Option.some.inj hs; subst this; exact ⟨h, rfl⟩
  | cons op ops ih =>
    unfold rcRun at hs
    cases h1 : rcStep parse cf st op with
    | none => rw [h1] at hs; cases hs
    | some st1 =>
      rw [h1] at hs
      obtain ⟨a, b⟩ := givenUp_step h h1
      obtain ⟨c, d⟩ := ih a hs
      exact ⟨c, d.trans b⟩

example : GivenUp { rcInit rcCfg 0 with phase := .tellErr b!"no" false } := .inr ⟨_, rfl⟩

/-- C99: a network that is disabled, or whose account is, is never connected, and nothing is sent. -/
theorem C99_disabled {parse : Str → Option Msg} {cf : RcConf} {t0 : Nat} {ops : List RcOp} {st' : RcState}
    (hs : rcRun parse cf (rcInit cf t0) (.start false :: ops) = some st') :
    st'.log = [] ∧ st'.phase = .ended ∧ st'.sent = [] := by
  have key : ∀ (ops : List RcOp) (st : RcState), st.phase = .ended → rcRun parse cf st ops = some st' →
      st'.log = st.log ∧ st'.phase = .ended ∧ st'.sent = st.sent := by
    intro ops
    induction ops with
    | nil => intro st hp hs; have := Option.some.inj hs; subst this; exact ⟨rfl, hp, rfl⟩
    | cons op ops ih =>
      intro st hp hs
      unfold rcRun at hs
      cases h1 : rcStep parse cf st op with
      | none => rw [h1] at hs; cases hs
      | some st1 =>
        rw [h1] at hs
        have : st1.phase = .ended ∧ st1.log = st.log ∧ st1.sent = st.sent := by
          cases op with
          | tick d => have := Option.some.inj h1; subst this; exact ⟨hp, rfl, rfl⟩
          | stop => have := Option.some.inj h1; subst this; exact ⟨hp, rfl, rfl⟩
          | cancel =>
            simp only [rcStep] at h1
            split at h1
            · have := Option.some.inj h1; subst this; exact ⟨hp, rfl, rfl⟩
            · cases h1
          | _ => simp [rcStep, rcSent, hp] at h1
        obtain ⟨a, b, c⟩ := ih st1 this.1 hs
        exact ⟨a.trans this.2.1, b, c.trans this.2.2⟩
  exact key ops _ rfl hs

example : (rcRun (fun _ => none) rcCfg (rcInit rcCfg 0) [.start false, .tick 100, .stop]).isSome = true := by decide

/-- C99: whatever the server says during the registration, it is handled: in particular the question whether an error
is temporary has an answer. -/
theorem C99_no_panic (parse : Str → Option Msg) (cf : RcConf) (st : RcState) (ur : UrState) (hp : st.phase = .reg ur)
    (ord : List Str) (m : Msg) (text : Str) : (rcStep parse cf st (.server ord m text)).isSome = true := by
  simp only [rcStep, hp]
  unfold rcServer
  dsimp only
  by_cases h1 : (upRegister cf.net ord ur m).2.2 = false
  · rw [if_pos h1]
    unfold rcRefuse
    by_cases h2 : isRegError m = true
    · rw [if_pos h2]
      obtain ⟨temp, ht⟩ := temporary_total h2
      rw [ht]; rfl
    · rw [if_neg h2]; rfl
  · rw [if_neg h1]
    by_cases h2 : (upRegister cf.net ord ur m).1.registered = true
    · rw [if_pos h2]; rfl
    · rw [if_neg h2]; rfl

/-! ## When it tries -/

private theorem openTry_mid (a mid : List RcItem) (t : Nat) (hm : ∀ x ∈ mid, isTry x = false ∧ x ≠ .closed) :
    openTry (a ++ .attempt t :: mid) = some t := by
  induction mid using snocInd with
  | nil => rw [openTry_snoc]
  | snoc l x ih =>
    have e : a ++ RcItem.attempt t :: (l ++ [x]) = (a ++ .attempt t :: l) ++ [x] := by simp
    rw [e, openTry_snoc]
    have hx := hm x (List.mem_append_right _ List.mem_cons_self)
    have := ih (fun y hy => hm y (List.mem_append_left _ hy))
    cases x <;> first | exact this | exact absurd rfl hx.2 | (exact absurd hx.1 (fun h => by cases h))

/-- Attempts are apart. -/
private def Apart (min : Nat) (log : List RcItem) : Prop :=
  ∀ a t mid u b, log = a ++ .attempt t :: mid ++ .attempt u :: b →
    (∀ x ∈ mid, isTry x = false ∧ x ≠ .closed) → t + min ≤ u

private theorem apart_snoc {min : Nat} {log : List RcItem} {x : RcItem} (h : Apart min log)
    (hx : ∀ u, x = .attempt u → ∀ t, openTry log = some t → t + min ≤ u) : Apart min (log ++ [x]) := by
  intro a t mid u b e hm
  rcases List.eq_nil_or_concat b with rfl | ⟨b', y, rfl⟩
  · have := List.append_inj' e rfl
    have h2 : x = .attempt u := by have := this.2; exact (List.cons.inj this).1
    exact hx u h2 t (by rw [this.1]; exact openTry_mid a mid t hm)
  · rw [List.concat_eq_append] at e
    have e' : log ++ [x] = (a ++ .attempt t :: mid ++ .attempt u :: b') ++ [y] := by rw [e]; simp
    exact h a t mid u b' (List.append_inj' e' rfl).1 hm

/-- What a step adds to the history. -/
private theorem step_log {parse : Str → Option Msg} {cf : RcConf} {st st' : RcState} {op : RcOp}
    (hs : rcStep parse cf st op = some st') :
    st'.log = st.log ∨ (∃ x, st'.log = st.log ++ [x] ∧ isTry x = false) ∨
    (∃ u, st.phase = .sleep u ∧ u ≤ st.now ∧ st'.phase = .dial ∧ st'.log = st.log ++ [.attempt st.now]) := by
  cases op with
  | tick d => have := Option.some.inj hs; subst this; exact .inl rfl
  | stop => have := Option.some.inj hs; subst this; exact .inl rfl
  | cancel =>
    simp only [rcStep] at hs
    split at hs
    · have := Option.some.inj hs; subst this; exact .inl rfl
    · cases hs
  | start on =>
    cases hp : st.phase <;> simp only [rcStep, hp] at hs <;> try cases hs
    exact .inl rfl
  | top r =>
    cases hp : st.phase <;> simp only [rcStep, hp] at hs <;> try cases hs
    split at hs
    · have := Option.some.inj hs; subst this; exact .inl rfl
    · have := Option.some.inj hs; subst this; exact .inl rfl
  | wake =>
    cases hp : st.phase <;> simp only [rcStep, hp] at hs <;> try cases hs
    rename_i u
    by_cases h1 : u ≤ st.now
    · rw [if_pos h1] at hs
      have := Option.some.inj hs; subst this
      exact .inr (.inr ⟨u, rfl, h1, rfl, rfl⟩)
    · rw [if_neg h1] at hs; cases hs
  | dialled =>
    cases hp : st.phase <;> simp only [rcStep, hp] at hs <;> try cases hs
    split at hs
    · cases hs
    · have := Option.some.inj hs; subst this; exact .inl rfl
  | dialFailed text =>
    cases hp : st.phase <;> simp only [rcStep, hp] at hs <;> try cases hs
    exact .inr (.inl ⟨_, rfl, rfl⟩)
  | server ord m text =>
    cases hp : st.phase <;> simp only [rcStep, hp] at hs <;> try cases hs
    unfold rcServer rcRefuse at hs
    dsimp only at hs
    split at hs
    · split at hs
      · split at hs
        · have := Option.some.inj hs; subst this; exact .inr (.inl ⟨_, rfl, rfl⟩)
        · cases hs
      · have := Option.some.inj hs; subst this; exact .inr (.inl ⟨_, rfl, rfl⟩)
    · split at hs
      · have := Option.some.inj hs; subst this; exact .inr (.inl ⟨_, rfl, rfl⟩)
      · have := Option.some.inj hs; subst this; exact .inl rfl
  | lost text =>
    cases hp : st.phase <;> simp only [rcStep, hp] at hs <;> try cases hs
    · exact .inr (.inl ⟨_, rfl, rfl⟩)
    · exact .inr (.inl ⟨_, rfl, rfl⟩)
  | eof =>
    cases hp : st.phase <;> simp only [rcStep, hp] at hs <;> try cases hs
    exact .inr (.inl ⟨_, rfl, rfl⟩)
  | sent =>
    simp only [rcStep, rcSent] at hs
    split at hs <;> first
      | (have := Option.some.inj hs; subst this; exact .inl rfl)
      | cases hs

private theorem run_apart {parse : Str → Option Msg} {cf : RcConf} (hm : cf.min ≤ cf.max) {ops : List RcOp} {st st' : RcState}
    (h : RcInv cf st) (ha : Apart cf.min st.log) (hs : rcRun parse cf st ops = some st') (hon : RcOp.start false ∉ ops)
    (hr : ∀ r, RcOp.top r ∈ ops → cf.jitter = 0 ∨ r < cf.jitter) : Apart cf.min st'.log := by
  induction ops generalizing st with
  | nil => have := Option.some.inj hs; subst this; exact ha
  | cons op ops ih =>
    unfold rcRun at hs
    cases h1 : rcStep parse cf st op with
    | none => rw [h1] at hs; cases hs
    | some st1 =>
      rw [h1] at hs
      refine ih (step_inv hm h h1 (fun e => hon (by rw [e]; exact List.mem_cons_self))
        (fun r e => hr r (by rw [e]; exact List.mem_cons_self))) ?_ hs (fun e => hon (List.mem_cons_of_mem _ e))
        (fun r e => hr r (List.mem_cons_of_mem _ e))
      rcases step_log h1 with e | ⟨x, e, hx⟩ | ⟨u, hp, hu, _, e⟩
      · rw [e]; exact ha
      · rw [e]; exact apart_snoc ha (fun u hu => by subst hu; cases hx)
      · rw [e]
        refine apart_snoc ha (fun v hv t ht => ?_)
        have := RcItem.attempt.inj hv; subst this
        exact Nat.le_trans (h.sleep u hp t ht) hu

/-- C99: two attempts in a row begin at least the smallest delay (a minute) apart, unless the server has closed the
connection of the first after accepting it. -/
theorem C99_spacing_partial {parse : Str → Option Msg} {cf : RcConf} (hm : cf.min ≤ cf.max) {t0 : Nat} {ops : List RcOp}
    {st : RcState} (h : RcReach parse cf t0 ops st) {a mid b : List RcItem} {t u : Nat}
    (e : st.log = a ++ .attempt t :: mid ++ .attempt u :: b)
    (hmid : ∀ x ∈ mid, isTry x = false ∧ x ≠ .closed) : t + cf.min ≤ u := by
  refine run_apart hm (init_inv cf t0) ?_ h.1 h.2.1 h.2.2 a t mid u b e hmid
  intro a t mid u b e
  have := congrArg List.length e
  simp [rcInit] at this

/-- C99: it never sleeps for longer than the greatest delay (ten minutes, and the random part) after the last
attempt. -/
theorem C99_due {parse : Str → Option Msg} {cf : RcConf} (hm : cf.min ≤ cf.max) {t0 : Nat} {ops : List RcOp}
    {st : RcState} (h : RcReach parse cf t0 ops st) {u : Nat} (hp : st.phase = .sleep u) :
    u ≤ st.now ∨ ∃ t, RcItem.attempt t ∈ st.log ∧ t ≤ st.now ∧ u ≤ t + cf.max + cf.jitter := by
  have hi := reach_inv hm h
  rcases hi.due u hp with h1 | ⟨t, h1, h2⟩
  · exact .inl h1
  · refine .inr ⟨t, ?_, hi.past t h1, h2⟩
    rw [hi.last] at h1
    have : ∀ (l : List RcItem), lastAttempt l = some t → RcItem.attempt t ∈ l := by
      intro l
      induction l using snocInd with
      | nil => intro h; cases h
      | snoc l x ih =>
        intro h
        rw [lastAttempt_snoc] at h
        cases x <;> first
          | exact List.mem_append_left _ (ih h)
          | (have := Option.some.inj h; subst this; exact List.mem_append_right _ List.mem_cons_self)
    exact this _ h1

/-- C99 is violated for servers that accept the bouncer and then close the connection: it comes back at once, any
number of times without any time passing. -/
theorem C99_hammering_violated (n : Nat) : ∃ ops st,
    RcReach (fun _ => none) rcCfg 0 ops st ∧ st.now = 0 ∧ st.log.countP isTry = n := by
  have step : ∀ (n : Nat) (st : RcState), st.phase = .top → st.stopped = false → st.cancelled = false →
      st.back.n = 0 → (∀ t, st.lastTry = some t → t ≤ st.now) →
      ∃ ops st', rcRun (fun _ => none) rcCfg st ops = some st' ∧ RcOp.start false ∉ ops ∧
        (∀ r, RcOp.top r ∈ ops → r = 0) ∧ st'.now = st.now ∧ st'.log.countP isTry = st.log.countP isTry + n := by
    intro n
    induction n with
    | zero => intro st _ _ _ _ _; exact ⟨[], st, rfl, by simp, by simp, rfl, rfl⟩
    | succ n ih =>
      intro st hp hs hc hb hl
      obtain ⟨now, stopped, cancelled, phase, back, lastTry, log, sent, told⟩ := st
      dsimp only at hp hs hc hb hl
      subst hp; subst hs; subst hc
      have hn : back.next 0 = ({ back with n := 1 }, 0) := by unfold Backoffer.next; rw [if_pos hb]
      have hu : rcUntil ⟨now, false, false, .top, back, lastTry, log, sent, told⟩ 0 = now := by
        unfold rcUntil
        cases lastTry with
        | none => rfl
        | some t =>
          have := hl t rfl
          show Nat.max now (t + 0) = now
          exact Nat.max_eq_left this
      obtain ⟨ops, st', h1, h2, h3, h4, h5⟩ := ih
        ⟨now, false, false, .top, { back with n := 0 }, some now, log ++ [.attempt now] ++ [.welcomed] ++ [.closed],
          (urStart rcCfg.net).2 ++ [] ++ rcCfg.commands.filterMap (fun _ => none), told ++ [none]⟩ rfl rfl rfl rfl
        (fun t e => by have := Option.some.inj e; subst this; exact Nat.le_refl _)
      refine ⟨[.top 0, .wake, .dialled, .server [] ⟨b!"001", [b!"alice"]⟩ [], .sent, .eof, .sent] ++ ops, st', ?_, ?_, ?_, h4, ?_⟩
      · rw [← h1]
        have s1 : rcStep (fun _ => none) rcCfg ⟨now, false, false, .top, back, lastTry, log, sent, told⟩ (.top 0) =
            some ⟨now, false, false, .sleep now, { back with n := 1 }, lastTry, log, sent, told⟩ := by
          simp only [rcStep, hn, hu]; rfl
        have s2 : rcStep (fun _ => none) rcCfg ⟨now, false, false, .sleep now, { back with n := 1 }, lastTry, log, sent, told⟩
            .wake = some ⟨now, false, false, .dial, { back with n := 1 }, some now, log ++ [.attempt now], sent, told⟩ := by
          simp only [rcStep, Nat.le_refl, if_true]
        simp only [List.cons_append, List.nil_append]
        rw [rcRun, s1]; dsimp only
        rw [rcRun, s2]; dsimp only
        rfl
      · intro h
        rcases List.mem_append.1 h with h | h
        · simp at h
        · exact h2 h
      · intro r h
        rcases List.mem_append.1 h with h | h
        · simpa using h
        · exact h3 r h
      · rw [h5]
        simp only [List.countP_append, List.countP_cons, List.countP_nil, isTry]
        simp only [if_true, Bool.false_eq_true, if_false]
        omega
  obtain ⟨ops, st', h1, h2, h3, h4, h5⟩ := step n { rcInit rcCfg 0 with phase := .top } rfl rfl rfl rfl (fun t e => by cases e)
  refine ⟨.start true :: ops, st', ⟨?_, ?_, ?_⟩, h4, h5.trans (Nat.zero_add n)⟩
  · rw [← h1]; rfl
  · intro h; rcases List.mem_cons.1 h with h | h
    · cases h
    · exact h2 h
  · intro r h
    rcases List.mem_cons.1 h with h | h
    · cases h
    · rw [h3 r h]; exact .inr (by decide)

/-! ## It gets back -/

/-- The answer of a server that accepts the bouncer. -/
private def welcome (cf : RcConf) : Msg := ⟨b!"001", [cf.net.nick]⟩

private theorem from_tellConn (parse : Str → Option Msg) (cf : RcConf) (st : RcState) (hp : st.phase = .tellConn) :
    ∃ st', rcRun parse cf st [.sent] = some st' ∧ st'.phase = .reading := by
  refine ⟨{ st with phase := .reading, told := st.told ++ [none] }, ?_, rfl⟩
  rw [rcRun]; simp only [rcStep, rcSent, hp, rcRun]

private theorem from_reg (parse : Str → Option Msg) (cf : RcConf) (st : RcState) (ur : UrState) (hp : st.phase = .reg ur) :
    ∃ st', rcRun parse cf st [.server [] (welcome cf) [], .sent] = some st' ∧ st'.phase = .reading := by
  have e : upRegister cf.net [] ur (welcome cf) = ({ ur with nick := cf.net.nick, registered := true }, [], true) := by
    unfold upRegister
    rw [if_neg (show ¬ (welcome cf).command = b!"CAP" from by show ¬ (b!"001" : Str) = b!"CAP"; decide)]
    unfold upRegOther
    rw [show (welcome cf).command = b!"001" from rfl, if_neg (show ¬ (b!"001" : Str) = b!"AUTHENTICATE" by decide), if_neg (show ¬ (b!"001" : Str) ∈ saslEndNumerics by decide),
      if_pos (show (b!"001" : Str) = b!"001" from rfl)]
    rfl
  have s1 : rcStep parse cf st (.server [] (welcome cf) []) =
      some { st with phase := .tellConn, log := st.log ++ [.welcomed], sent := st.sent ++ [] ++ cf.commands.filterMap parse } := by
    simp only [rcStep, hp]
    unfold rcServer
    rw [e]
    dsimp only
    rw [if_neg (by decide), if_pos rfl]
  rw [rcRun, s1]
  exact from_tellConn parse cf _ rfl

private theorem from_dial (parse : Str → Option Msg) (cf : RcConf) (st : RcState) (hp : st.phase = .dial)
    (hc : st.cancelled = false) :
    ∃ st', rcRun parse cf st [.dialled, .server [] (welcome cf) [], .sent] = some st' ∧ st'.phase = .reading := by
  have s1 : rcStep parse cf st .dialled = some { st with phase := .reg (urStart cf.net).1, sent := (urStart cf.net).2 } := by
    simp only [rcStep, hp, hc, Bool.false_eq_true, if_false]
  rw [rcRun, s1]
  exact from_reg parse cf _ _ rfl

private theorem from_sleep (parse : Str → Option Msg) (cf : RcConf) (st : RcState) (u : Nat) (hp : st.phase = .sleep u)
    (hc : st.cancelled = false) :
    ∃ st', rcRun parse cf st [.tick (u - st.now), .wake, .dialled, .server [] (welcome cf) [], .sent] = some st' ∧
      st'.phase = .reading := by
  have s1 : rcStep parse cf st (.tick (u - st.now)) = some { st with now := st.now + (u - st.now) } := rfl
  have s2 : rcStep parse cf { st with now := st.now + (u - st.now) } .wake =
      some { st with now := st.now + (u - st.now), phase := .dial, lastTry := some (st.now + (u - st.now)),
                     log := st.log ++ [.attempt (st.now + (u - st.now))] } := by
    simp only [rcStep, hp]
    rw [if_pos (by omega)]
  rw [rcRun, s1]; dsimp only
  rw [rcRun, s2]
  exact from_dial parse cf _ rfl hc

private theorem from_top (parse : Str → Option Msg) {cf : RcConf} (hm : cf.min ≤ cf.max) {st : RcState} (hi : RcInv cf st)
    (hp : st.phase = .top) (hs : st.stopped = false) (hc : st.cancelled = false) :
    ∃ d st', d ≤ cf.max + cf.jitter ∧
      rcRun parse cf st [.top 0, .tick d, .wake, .dialled, .server [] (welcome cf) [], .sent] = some st' ∧
      st'.phase = .reading := by
  have s1 : rcStep parse cf st (.top 0) =
      some { st with phase := .sleep (rcUntil st (st.back.next 0).2), back := (st.back.next 0).1 } := by
    simp only [rcStep, hp, hs, Bool.false_eq_true, if_false]
  obtain ⟨st', h1, h2⟩ := from_sleep parse cf
    { st with phase := .sleep (rcUntil st (st.back.next 0).2), back := (st.back.next 0).1 } _ rfl hc
  refine ⟨rcUntil st (st.back.next 0).2 - st.now, st', ?_, ?_, h2⟩
  · have hd : (st.back.next 0).2 ≤ cf.max + cf.jitter := by
      by_cases hn : st.back.n = 0
      · rw [next_zero 0 hn]; exact Nat.zero_le _
      · have h0 : st.back.jitter = 0 ∨ 0 < st.back.jitter := Nat.eq_zero_or_pos _
        have := (next_bounds 0 hn (by rw [hi.bmin, hi.bmax]; exact hm) h0).2
        rw [hi.bmax, hi.bjit] at this
        exact this
    unfold rcUntil
    cases hl : st.lastTry with
    | none => dsimp only; omega
    | some t =>
      have := hi.past t hl
      dsimp only
      have : Nat.max st.now (t + (st.back.next 0).2) ≤ st.now + (cf.max + cf.jitter) := Nat.max_le.2 ⟨by omega, by omega⟩
      omega
  · rw [rcRun, s1]; exact h1

/-- C99: as long as it has not given up and the network has not been removed, the bouncer can get connected: if the
server accepts it from now on, it is registered after at most the greatest delay. -/
theorem C99_recovers {parse : Str → Option Msg} {cf : RcConf} (hm : cf.min ≤ cf.max) {t0 : Nat} {ops : List RcOp}
    {st : RcState} (h : RcReach parse cf t0 ops st) (hs : st.stopped = false) (hg : ¬ GivenUp st) :
    ∃ more st', rcRun parse cf st more = some st' ∧ st'.phase = .reading ∧ rcTicks more ≤ cf.max + cf.jitter ∧
      (∀ o ∈ more, o ≠ .stop ∧ o ≠ .cancel ∧ (∀ t, o ≠ .dialFailed t) ∧ (∀ t, o ≠ .lost t) ∧ o ≠ .eof ∧
        ∀ ord m t, o = .server ord m t → m.command = b!"001") := by
  have hi := reach_inv hm h
  have hc : st.cancelled = false := by
    cases hc : st.cancelled with
    | false => rfl
    | true => have := hi.canc hc; rw [hs] at this; cases this
  cases hp : st.phase with
  | fresh =>
    have s1 : rcStep parse cf st (.start true) = some { st with phase := .top } := by simp only [rcStep, hp, if_true]
    obtain ⟨d, st', h0, h1, h2⟩ := from_top parse hm (quiet0 hi .top st.sent st.told trivial hg) rfl hs hc
    refine ⟨[.start true, .top 0, .tick d, .wake, .dialled, .server [] (welcome cf) [], .sent], st', ?_, h2, ?_, ?_⟩
    · rw [rcRun, s1]; exact h1
    · simpa [rcTicks] using h0
    · simp [welcome]; (intro _ m _ _ e _; rw [← e])
  | top =>
    obtain ⟨d, st', h0, h1, h2⟩ := from_top parse hm hi hp hs hc
    exact ⟨_, st', h1, h2, by simpa [rcTicks] using h0, by simp [welcome]; (intro _ m _ _ e _; rw [← e])⟩
  | sleep u =>
    obtain ⟨st', h1, h2⟩ := from_sleep parse cf st u hp hc
    refine ⟨_, st', h1, h2, ?_, by simp [welcome]; (intro _ m _ _ e _; rw [← e])⟩
    have : u - st.now ≤ cf.max + cf.jitter := by
      rcases hi.due u hp with h | ⟨t, h, h'⟩
      · omega
      · have := hi.past t h; omega
    simpa [rcTicks] using this
  | dial =>
    obtain ⟨st', h1, h2⟩ := from_dial parse cf st hp hc
    exact ⟨_, st', h1, h2, by simp [rcTicks], by simp [welcome]; (intro _ m _ _ e _; rw [← e])⟩
  | reg ur =>
    obtain ⟨st', h1, h2⟩ := from_reg parse cf st ur hp
    exact ⟨_, st', h1, h2, by simp [rcTicks], by simp [welcome]; (intro _ m _ _ e _; rw [← e])⟩
  | tellConn =>
    obtain ⟨st', h1, h2⟩ := from_tellConn parse cf st hp
    exact ⟨_, st', h1, h2, by simp [rcTicks], by simp⟩
  | reading => exact ⟨[], st, rfl, hp, by simp [rcTicks], by simp⟩
  | tellDisc err =>
    cases err with
    | none =>
      have s1 : rcStep parse cf st .sent = some { st with phase := .top, back := st.back.reset } := by
        simp only [rcStep, rcSent, hp]
      have hi' := step_inv hm hi s1 (by simp) (by simp)
      obtain ⟨d, st', h0, h1, h2⟩ := from_top parse hm hi' rfl hs hc
      refine ⟨[.sent, .top 0, .tick d, .wake, .dialled, .server [] (welcome cf) [], .sent], st', ?_, h2, ?_, ?_⟩
      · rw [rcRun, s1]; exact h1
      · simpa [rcTicks] using h0
      · simp [welcome]; (intro _ m _ _ e _; rw [← e])
    | some text =>
      have s1 : rcStep parse cf st .sent = some { st with phase := .tellErr (readFailText text) true } := by
        simp only [rcStep, rcSent, hp]
      have s2 : rcStep parse cf { st with phase := .tellErr (readFailText text) true } .sent =
          some { st with phase := .top, told := st.told ++ [some (readFailText text)] } := by
        simp only [rcStep, rcSent, if_true]
      have hi' := step_inv hm (step_inv hm hi s1 (by simp) (by simp)) s2 (by simp) (by simp)
      obtain ⟨d, st', h0, h1, h2⟩ := from_top parse hm hi' rfl hs hc
      refine ⟨[.sent, .sent, .top 0, .tick d, .wake, .dialled, .server [] (welcome cf) [], .sent], st', ?_, h2, ?_, ?_⟩
      · rw [rcRun, s1]; dsimp only; rw [rcRun, s2]; exact h1
      · simpa [rcTicks] using h0
      · simp [welcome]; (intro _ m _ _ e _; rw [← e])
  | tellErr text temp =>
    cases temp with
    | false => exact absurd (.inr ⟨text, hp⟩) hg
    | true =>
      have s1 : rcStep parse cf st .sent = some { st with phase := .top, told := st.told ++ [some text] } := by
        simp only [rcStep, rcSent, hp, if_true]
      have hi' := step_inv hm hi s1 (by simp) (by simp)
      obtain ⟨d, st', h0, h1, h2⟩ := from_top parse hm hi' rfl hs hc
      refine ⟨[.sent, .top 0, .tick d, .wake, .dialled, .server [] (welcome cf) [], .sent], st', ?_, h2, ?_, ?_⟩
      · rw [rcRun, s1]; exact h1
      · simpa [rcTicks] using h0
      · simp [welcome]; (intro _ m _ _ e _; rw [← e])
  | ended => exact absurd (.inl hp) hg

/-- Its nick is in use, and the nick with an underscore, which nobody has asked for, is not allowed: the bouncer gives
up for good, although the server has never objected to the settings of the network. -/
theorem C99_fallback_violated : ∃ ops st, RcReach (fun _ => none) rcCfg 0 ops st ∧ st.stopped = false ∧ st.phase = .ended ∧
    st.sent = [⟨b!"CAP", [b!"LS", b!"302"]⟩, ⟨b!"NICK", [b!"alice"]⟩,
      ⟨b!"USER", [b!"alice", b!"0", b!"*", b!"Alice"]⟩, ⟨b!"NICK", [b!"alice_"]⟩] ∧
    st.log = [.attempt 0, .refused ⟨b!"432", [b!"*", b!"alice_", b!"not allowed"]⟩] := by
  refine ⟨[.start true, .top 0, .wake, .dialled, .server [] ⟨b!"433", [b!"*", b!"alice", b!"in use"]⟩ [],
    .server [] ⟨b!"432", [b!"*", b!"alice_", b!"not allowed"]⟩ [], .sent], _, ⟨rfl, by decide, ?_⟩, ?_, ?_, ?_, ?_⟩
  · intro r hr
    have : r = 0 := by simpa using hr
    rw [this]; exact .inr (by decide)
  all_goals decide

/-! ## After the network is removed -/

private def sleeping : RcPhase → Nat
  | .sleep _ => 1
  | _ => 0

private def noConn : RcPhase → Bool
  | .reg _ | .tellConn | .reading | .tellDisc _ => false
  | _ => true

private theorem stopped_step {parse : Str → Option Msg} {cf : RcConf} {st st' : RcState} {op : RcOp}
    (h : st.stopped = true) (hs : rcStep parse cf st op = some st') :
    st'.stopped = true ∧ (st.cancelled = true → st'.cancelled = true) ∧
    st'.log.countP isTry + sleeping st'.phase ≤ st.log.countP isTry + sleeping st.phase ∧
    (st.cancelled = true → noConn st.phase = true → noConn st'.phase = true ∧
      st'.log.count .welcomed = st.log.count .welcomed) := by
  cases op with
  | tick d => have := Option.some.inj hs; subst this; exact ⟨h, id, Nat.le_refl _, fun _ hn => ⟨hn, rfl⟩⟩
  | stop => have := Option.some.inj hs; subst this; exact ⟨rfl, id, Nat.le_refl _, fun _ hn => ⟨hn, rfl⟩⟩
  | cancel =>
    simp only [rcStep, h, if_true] at hs
    have := Option.some.inj hs; subst this; exact ⟨rfl, fun _ => rfl, Nat.le_refl _, fun _ hn => ⟨hn, rfl⟩⟩
  | start on =>
    cases hp : st.phase <;> simp only [rcStep, hp] at hs <;> try cases hs
    cases on <;> exact ⟨h, id, Nat.le_refl _, fun _ _ => ⟨rfl, rfl⟩⟩
  | top r =>
    cases hp : st.phase <;> simp only [rcStep, hp, h, if_true] at hs <;> try cases hs
    exact ⟨rfl, id, Nat.le_refl _, fun _ _ => ⟨rfl, rfl⟩⟩
  | wake =>
    cases hp : st.phase <;> simp only [rcStep, hp] at hs <;> try cases hs
    rename_i u
    by_cases h1 : u ≤ st.now
    · rw [if_pos h1] at hs
      have := Option.some.inj hs; subst this
      refine ⟨h, id, ?_, fun _ _ => ⟨rfl, ?_⟩⟩
      · show (st.log ++ [RcItem.attempt st.now]).countP isTry + 0 ≤ _
        rw [List.countP_append]
        exact Nat.le_refl _
      · show (st.log ++ [RcItem.attempt st.now]).count .welcomed = _
        rw [List.count_append]; rfl
    · rw [if_neg h1] at hs; cases hs
  | dialled =>
    cases hp : st.phase <;> simp only [rcStep, hp] at hs <;> try cases hs
    by_cases h1 : st.cancelled = true
    · rw [if_pos h1] at hs; cases hs
    · rw [if_neg h1] at hs
      have := Option.some.inj hs; subst this
      exact ⟨h, id, Nat.le_refl _, fun a => absurd a h1⟩
  | dialFailed text =>
    cases hp : st.phase <;> simp only [rcStep, hp] at hs <;> try cases hs
    refine ⟨h, id, ?_, fun _ _ => ⟨rfl, ?_⟩⟩
    · show (st.log ++ [RcItem.failed text]).countP isTry + 0 ≤ _
      rw [List.countP_append]; exact Nat.le_refl _
    · show (st.log ++ [RcItem.failed text]).count .welcomed = _
      rw [List.count_append, List.count_singleton]; rfl
  | server ord m text =>
    cases hp : st.phase <;> simp only [rcStep, hp] at hs <;> try cases hs
    refine ⟨?_, ?_, ?_, fun _ hn => by cases hn⟩
    · unfold rcServer rcRefuse at hs
      dsimp only at hs
      split at hs
      · split at hs
        · split at hs
          · have := Option.some.inj hs; subst this; exact h
          · cases hs
        · have := Option.some.inj hs; subst this; exact h
      · split at hs
        · have := Option.some.inj hs; subst this; exact h
        · have := Option.some.inj hs; subst this; exact h
    · unfold rcServer rcRefuse at hs
      dsimp only at hs
      split at hs
      · split at hs
        · split at hs
          · have := Option.some.inj hs; subst this; exact id
          · cases hs
        · have := Option.some.inj hs; subst this; exact id
      · split at hs
        · have := Option.some.inj hs; subst this; exact id
        · have := Option.some.inj hs; subst this; exact id
    · have hz : sleeping st'.phase = 0 := by
        unfold rcServer rcRefuse at hs
        dsimp only at hs
        split at hs
        · split at hs
          · split at hs
            · have := Option.some.inj hs; subst this; rfl
            · cases hs
          · have := Option.some.inj hs; subst this; rfl
        · split at hs
          · have := Option.some.inj hs; subst this; rfl
          · have := Option.some.inj hs; subst this; rfl
      have hs' : rcStep parse cf st (.server ord m text) = some st' := by simp only [rcStep, hp]; exact hs
      rw [hz]
      rcases step_log hs' with e | ⟨x, e, hx⟩ | ⟨u, e, _⟩
      · rw [e]; exact Nat.le_refl _
      · rw [e, List.countP_append, List.countP_singleton, hx]; exact Nat.le_refl _
      · rw [hp] at e; cases e
  | lost text =>
    cases hp : st.phase <;> simp only [rcStep, hp] at hs <;> try cases hs
    · refine ⟨h, id, ?_, fun _ hn => by cases hn⟩
      show (st.log ++ [RcItem.failed text]).countP isTry + 0 ≤ _
      rw [List.countP_append]; exact Nat.le_refl _
    · refine ⟨h, id, ?_, fun _ hn => by cases hn⟩
      show (st.log ++ [RcItem.lost text]).countP isTry + 0 ≤ _
      rw [List.countP_append]; exact Nat.le_refl _
  | eof =>
    cases hp : st.phase <;> simp only [rcStep, hp] at hs <;> try cases hs
    refine ⟨h, id, ?_, fun _ hn => by cases hn⟩
    show (st.log ++ [RcItem.closed]).countP isTry + 0 ≤ _
    rw [List.countP_append]; exact Nat.le_refl _
  | sent =>
    simp only [rcStep, rcSent] at hs
    cases hp : st.phase with
    | tellConn =>
      rw [hp] at hs
      have := Option.some.inj hs; subst this; exact ⟨h, id, Nat.le_refl _, fun _ hn => by cases hn⟩
    | tellDisc err =>
      rw [hp] at hs
      cases err with
      | none => have := Option.some.inj hs; subst this; exact ⟨h, id, Nat.le_refl _, fun _ hn => by cases hn⟩
      | some t => have := Option.some.inj hs; subst this; exact ⟨h, id, Nat.le_refl _, fun _ hn => by cases hn⟩
    | tellErr text temp =>
      rw [hp] at hs
      have := Option.some.inj hs; subst this
      cases temp <;> exact ⟨h, id, Nat.le_refl _, fun _ _ => ⟨rfl, rfl⟩⟩
    | _ => rw [hp] at hs; cases hs

/-- C99: once the network has been removed or replaced there is at most one more attempt, and that only if it was
already waiting for it; and if the attempt has not reached the server when the goroutine notices, it never will. -/
theorem C99_removed {parse : Str → Option Msg} {cf : RcConf} {ops : List RcOp} {st st' : RcState}
    (h : st.stopped = true) (hs : rcRun parse cf st ops = some st') :
    st'.log.countP isTry ≤ st.log.countP isTry + 1 ∧
    ((∀ u, st.phase ≠ .sleep u) → st'.log.countP isTry = st.log.countP isTry) ∧
    (st.cancelled = true →
      (∀ ur, st.phase ≠ .reg ur) → st.phase ≠ .tellConn → st.phase ≠ .reading → (∀ e, st.phase ≠ .tellDisc e) →
      st'.log.count .welcomed = st.log.count .welcomed) := by
  have main : st'.log.countP isTry + sleeping st'.phase ≤ st.log.countP isTry + sleeping st.phase ∧
      (st.cancelled = true → noConn st.phase = true → st'.log.count .welcomed = st.log.count .welcomed) ∧
      st.log.countP isTry ≤ st'.log.countP isTry := by
    induction ops generalizing st with
    | nil => have := Option.some.inj hs; subst this; exact ⟨Nat.le_refl _, fun _ _ => rfl, Nat.le_refl _⟩
    | cons op ops ih =>
      unfold rcRun at hs
      cases h1 : rcStep parse cf st op with
      | none => rw [h1] at hs; cases hs
      | some st1 =>
        rw [h1] at hs
        obtain ⟨a, b, c, d⟩ := stopped_step h h1
        obtain ⟨e, f, g⟩ := ih a hs
        refine ⟨Nat.le_trans e c, fun hc hn => ?_, Nat.le_trans ?_ g⟩
        · obtain ⟨d1, d2⟩ := d hc hn
          rw [f (b hc) d1, d2]
        · rcases step_log h1 with e | ⟨x, e, _⟩ | ⟨u, _, _, _, e⟩
          · rw [e]; exact Nat.le_refl _
          · rw [e, List.countP_append]; exact Nat.le_add_right _ _
          · rw [e, List.countP_append]; exact Nat.le_add_right _ _
  obtain ⟨m1, m2, m3⟩ := main
  refine ⟨?_, fun hn => ?_, fun hc h1 h2 h3 h4 => m2 hc ?_⟩
  · have : sleeping st.phase ≤ 1 := by cases st.phase <;> simp [sleeping]
    omega
  · have : sleeping st.phase = 0 := by
      cases hp : st.phase with
      | sleep u => exact absurd hp (hn u)
      | _ => rfl
    omega
  · cases hp : st.phase with
    | reg ur => exact absurd hp (h1 ur)
    | tellConn => exact absurd hp h2
    | reading => exact absurd hp h3
    | tellDisc e => exact absurd hp (h4 e)
    | _ => rfl

/-- The network is removed while the goroutine sleeps: it tries once more, in vain, and ends. -/
example : ∃ st st', rcRun (fun _ => none) rcCfg (rcInit rcCfg 0) [.start true, .top 0, .wake, .dialFailed b!"refused", .sent, .top 0, .stop] = some st ∧
    st.stopped = true ∧ rcRun (fun _ => none) rcCfg st [.cancel, .tick 60, .wake, .dialFailed b!"canceled", .sent, .top 0] = some st' ∧
    st'.phase = .ended ∧ st'.log.countP isTry = 2 := by
  refine ⟨_, _, rfl, rfl, rfl, ?_, ?_⟩ <;> decide

/-! ## What is reported -/

/-- The event for an item of the history: a connection, or an error whose text ends with the reason; for a refusal the
reason is what the server said. -/
def Reports : RcItem → Option Str → Prop
  | .welcomed, none => True
  | .refused m, some s => regReason m <:+ s
  | .failed t, some s => t <:+ s
  | .lost t, some s => t <:+ s
  | _, _ => False

/-- The items that are reported. -/
def isReport : RcItem → Bool
  | .attempt _ => false
  | .closed => false
  | _ => true

/-- The event that the goroutine is about to send. -/
private def pendingTell : RcPhase → List (Option Str)
  | .tellConn => [none]
  | .tellDisc (some t) => [some (readFailText t)]
  | .tellErr t _ => [some t]
  | _ => []

/-- The two lists have the same length and their elements are related one by one. -/
def OneByOne {α β : Type} (R : α → β → Prop) : List α → List β → Prop
  | [], [] => True
  | a :: l, b :: l' => R a b ∧ OneByOne R l l'
  | _, _ => False

private theorem oneByOne_snoc {α β : Type} {R : α → β → Prop} {l : List α} {l' : List β} {a : α} {b : β}
    (h : OneByOne R l l') (hab : R a b) : OneByOne R (l ++ [a]) (l' ++ [b]) := by
  induction l generalizing l' with
  | nil => cases l' with
    | nil => exact ⟨hab, trivial⟩
    | cons => cases h
  | cons x l ih => cases l' with
    | nil => cases h
    | cons y l' => exact ⟨h.1, ih h.2⟩

private def ToldInv (st : RcState) : Prop :=
  OneByOne Reports (st.log.filter isReport) (st.told ++ pendingTell st.phase)

private theorem filter_snoc (log : List RcItem) (x : RcItem) :
    (log ++ [x]).filter isReport = if isReport x then log.filter isReport ++ [x] else log.filter isReport := by
  rw [List.filter_append]
  cases h : isReport x <;> simp [h]

private theorem told_step {parse : Str → Option Msg} {cf : RcConf} {st st' : RcState} {op : RcOp}
    (h : ToldInv st) (hs : rcStep parse cf st op = some st') : ToldInv st' := by
  unfold ToldInv at h ⊢
  have hnil : ∀ {p : RcPhase}, st.phase = p → pendingTell p = [] →
      OneByOne Reports (st.log.filter isReport) st.told := by
    intro p e1 e2; rw [e1, e2, List.append_nil] at h; exact h
  cases op with
  | tick d => have := Option.some.inj hs; subst this; exact h
  | stop => have := Option.some.inj hs; subst this; exact h
  | cancel =>
    simp only [rcStep] at hs
    split at hs
    · have := Option.some.inj hs; subst this; exact h
    · cases hs
  | start on =>
    cases hp : st.phase <;> simp only [rcStep, hp] at hs <;> try cases hs
    have := hnil hp rfl
    cases on <;> (show OneByOne Reports _ (st.told ++ []); rw [List.append_nil]; exact this)
  | top r =>
    cases hp : st.phase <;> simp only [rcStep, hp] at hs <;> try cases hs
    have h0 := hnil hp rfl
    split at hs
    · have := Option.some.inj hs; subst this; show OneByOne Reports _ (st.told ++ []); rw [List.append_nil]; exact h0
    · have := Option.some.inj hs; subst this; show OneByOne Reports _ (st.told ++ []); rw [List.append_nil]; exact h0
  | wake =>
    cases hp : st.phase <;> simp only [rcStep, hp] at hs <;> try cases hs
    have h0 := hnil hp rfl
    split at hs
    · have := Option.some.inj hs; subst this
      show OneByOne Reports ((st.log ++ [RcItem.attempt st.now]).filter isReport) (st.told ++ [])
      rw [List.append_nil, filter_snoc]; exact h0
    · cases hs
  | dialled =>
    cases hp : st.phase <;> simp only [rcStep, hp] at hs <;> try cases hs
    have h0 := hnil hp rfl
    split at hs
    · cases hs
    · have := Option.some.inj hs; subst this; show OneByOne Reports _ (st.told ++ []); rw [List.append_nil]; exact h0
  | dialFailed text =>
    cases hp : st.phase <;> simp only [rcStep, hp] at hs <;> try cases hs
    have h0 := hnil hp rfl
    show OneByOne Reports ((st.log ++ [RcItem.failed text]).filter isReport) (st.told ++ [some (dialFailText text)])
    rw [filter_snoc]
    exact oneByOne_snoc h0 (List.suffix_append _ _)
  | server ord m text =>
    cases hp : st.phase <;> simp only [rcStep, hp] at hs <;> try cases hs
    have h0 := hnil hp rfl
    unfold rcServer rcRefuse at hs
    dsimp only at hs
    split at hs
    · split at hs
      · split at hs
        · have := Option.some.inj hs; subst this
          show OneByOne Reports ((st.log ++ [RcItem.refused m]).filter isReport) (st.told ++ [some (regFailText (regErrorText m))])
          rw [filter_snoc]
          exact oneByOne_snoc h0 ((List.suffix_append _ _).trans (List.suffix_append _ _))
        · cases hs
      · have := Option.some.inj hs; subst this
        show OneByOne Reports ((st.log ++ [RcItem.failed text]).filter isReport) (st.told ++ [some (regFailText text)])
        rw [filter_snoc]
        exact oneByOne_snoc h0 (List.suffix_append _ _)
    · split at hs
      · have := Option.some.inj hs; subst this
        show OneByOne Reports ((st.log ++ [RcItem.welcomed]).filter isReport) (st.told ++ [none])
        rw [filter_snoc]
        exact oneByOne_snoc h0 trivial
      · have := Option.some.inj hs; subst this; show OneByOne Reports _ (st.told ++ []); rw [List.append_nil]; exact h0
  | lost text =>
    cases hp : st.phase <;> simp only [rcStep, hp] at hs <;> try cases hs
    · have h0 := hnil hp rfl
      show OneByOne Reports ((st.log ++ [RcItem.failed text]).filter isReport) (st.told ++ [some (regFailText text)])
      rw [filter_snoc]
      exact oneByOne_snoc h0 (List.suffix_append _ _)
    · have h0 := hnil hp rfl
      show OneByOne Reports ((st.log ++ [RcItem.lost text]).filter isReport) (st.told ++ [some (readFailText text)])
      rw [filter_snoc]
      exact oneByOne_snoc h0 (List.suffix_append _ _)
  | eof =>
    cases hp : st.phase <;> simp only [rcStep, hp] at hs <;> try cases hs
    have h0 := hnil hp rfl
    show OneByOne Reports ((st.log ++ [RcItem.closed]).filter isReport) (st.told ++ [])
    rw [List.append_nil, filter_snoc]; exact h0
  | sent =>
    simp only [rcStep, rcSent] at hs
    cases hp : st.phase with
    | tellConn =>
      rw [hp] at hs h
      have := Option.some.inj hs; subst this
      show OneByOne Reports _ (st.told ++ [none] ++ [])
      rw [List.append_nil]; exact h
    | tellDisc err =>
      rw [hp] at hs h
      cases err with
      | none => have := Option.some.inj hs; subst this; exact h
      | some t => have := Option.some.inj hs; subst this; exact h
    | tellErr text temp =>
      rw [hp] at hs h
      have := Option.some.inj hs; subst this
      have : pendingTell (if temp = true then RcPhase.top else .ended) = [] := by cases temp <;> rfl
      show OneByOne Reports _ (st.told ++ [some text] ++ pendingTell (if temp = true then RcPhase.top else .ended))
      rw [this, List.append_nil]; exact h
    | _ => rw [hp] at hs; cases hs

private theorem told_run {parse : Str → Option Msg} {cf : RcConf} {ops : List RcOp} {st st' : RcState}
    (h : ToldInv st) (hs : rcRun parse cf st ops = some st') : ToldInv st' := by
  induction ops generalizing st with
  | nil => have := Option.some.inj hs; subst this; exact h
  | cons op ops ih =>
    unfold rcRun at hs
    cases h1 : rcStep parse cf st op with
    | none => rw [h1] at hs; cases hs
    | some st1 => rw [h1] at hs; exact ih (told_step h h1) hs

/-- C99: every connection and every failure is reported to the loop of the account, once and in order, with the reason
(the words of the server, if it has refused the registration), before anything else is tried. -/
theorem C99_reported {parse : Str → Option Msg} {cf : RcConf} {t0 : Nat} {ops : List RcOp} {st : RcState}
    (hs : rcRun parse cf (rcInit cf t0) ops = some st)
    (hp : (∃ u, st.phase = .sleep u) ∨ st.phase = .dial ∨ st.phase = .top ∨ st.phase = .reading ∨ st.phase = .ended) :
    OneByOne Reports (st.log.filter isReport) st.told := by
  have h : ToldInv st := told_run (st := rcInit cf t0) trivial hs
  unfold ToldInv at h
  rcases hp with ⟨u, e⟩ | e | e | e | e <;> rw [e] at h <;> simpa [pendingTell] using h

example : ∃ st, rcRun (fun _ => none) rcCfg (rcInit rcCfg 5) rcOps = some st ∧ st.phase = .ended ∧
    st.told = [some b!"connection error: failed to connect: refused",
      some b!"connection error: failed to register: registration error (465): banned",
      some b!"connection error: failed to register: registration error (464): wrong password"] :=
  ⟨_, rfl, by decide, by decide⟩

/-! ## What is sent -/

private def SentInv (parse : Str → Option Msg) (cf : RcConf) (st : RcState) : Prop :=
  (∀ ur, st.phase = .reg ur → ur.registered = false ∧ ∃ msgs, (∀ o ∈ msgs, o.net = cf.net) ∧
    (urRun (urStart cf.net).1 msgs).1 = some ur ∧
    st.sent = (urStart cf.net).2 ++ (urRun (urStart cf.net).1 msgs).2) ∧
  (st.phase = .tellConn ∨ st.phase = .reading → ∃ msgs ur, (∀ o ∈ msgs, o.net = cf.net) ∧
    (urRun (urStart cf.net).1 msgs).1 = some ur ∧ ur.registered = true ∧
    st.sent = (urStart cf.net).2 ++ (urRun (urStart cf.net).1 msgs).2 ++ cf.commands.filterMap parse)

private theorem sent_other {parse : Str → Option Msg} {cf : RcConf} {st : RcState}
    (h1 : ∀ ur, st.phase ≠ .reg ur) (h2 : st.phase ≠ .tellConn) (h3 : st.phase ≠ .reading) : SentInv parse cf st :=
  ⟨fun ur e => absurd e (h1 ur), fun e => (e.elim h2 h3).elim⟩

private theorem sent_step {parse : Str → Option Msg} {cf : RcConf} {st st' : RcState} {op : RcOp}
    (h : SentInv parse cf st) (hs : rcStep parse cf st op = some st') : SentInv parse cf st' := by
  cases op with
  | tick d => have := Option.some.inj hs; subst this; exact h
  | stop => have := Option.some.inj hs; subst this; exact h
  | cancel =>
    simp only [rcStep] at hs
    split at hs
    · have := Option.some.inj hs; subst this; exact h
    · cases hs
  | start on =>
    cases hp : st.phase <;> simp only [rcStep, hp] at hs <;> try cases hs
    cases on <;> exact sent_other (by intro ur e; cases e) (by intro e; cases e) (by intro e; cases e)
  | top r =>
    cases hp : st.phase <;> simp only [rcStep, hp] at hs <;> try cases hs
    split at hs
    · have := Option.some.inj hs; subst this; exact sent_other (by intro ur e; cases e) (by intro e; cases e) (by intro e; cases e)
    · have := Option.some.inj hs; subst this; exact sent_other (by intro ur e; cases e) (by intro e; cases e) (by intro e; cases e)
  | wake =>
    cases hp : st.phase <;> simp only [rcStep, hp] at hs <;> try cases hs
    split at hs
    · have := Option.some.inj hs; subst this; exact sent_other (by intro ur e; cases e) (by intro e; cases e) (by intro e; cases e)
    · cases hs
  | dialled =>
    cases hp : st.phase <;> simp only [rcStep, hp] at hs <;> try cases hs
    split at hs
    · cases hs
    · have := Option.some.inj hs; subst this
      refine ⟨fun ur e => ?_, fun e => by rcases e with e | e <;> cases e⟩
      have := RcPhase.reg.inj e; subst this
      exact ⟨rfl, [], by simp, rfl, (List.append_nil _).symm⟩
  | dialFailed text =>
    cases hp : st.phase <;> simp only [rcStep, hp] at hs <;> try cases hs
    exact sent_other (by intro ur e; cases e) (by intro e; cases e) (by intro e; cases e)
  | server ord m text =>
    cases hp : st.phase <;> simp only [rcStep, hp] at hs <;> try cases hs
    rename_i ur
    obtain ⟨hr, msgs, hn, h1, h2⟩ := h.1 ur hp
    have e := urRun_snoc (urStart cf.net).1 msgs ⟨cf.net, ord, m⟩
    rw [h1] at e
    dsimp only at e
    have hu : urStep ur ⟨cf.net, ord, m⟩ = ((upRegister cf.net ord ur m).1, (upRegister cf.net ord ur m).2.1, (upRegister cf.net ord ur m).2.2) := by
      unfold urStep
      simp only [hr, Bool.or_false]
    have hn' : ∀ o ∈ msgs ++ [(⟨cf.net, ord, m⟩ : UrOp)], o.net = cf.net := by
      intro o ho
      rcases List.mem_append.1 ho with ho | ho
      · exact hn o ho
      · rw [List.mem_singleton.1 ho]
    unfold rcServer rcRefuse at hs
    dsimp only at hs
    split at hs
    · split at hs
      · split at hs
        · have := Option.some.inj hs; subst this; exact sent_other (by intro ur e; cases e) (by intro e; cases e) (by intro e; cases e)
        · cases hs
      · have := Option.some.inj hs; subst this; exact sent_other (by intro ur e; cases e) (by intro e; cases e) (by intro e; cases e)
    · rename_i hok
      have hok : (upRegister cf.net ord ur m).2.2 = true := by simpa using hok
      rw [hu, hok, if_pos rfl] at e
      dsimp only at e
      split at hs
      · rename_i hreg
        have := Option.some.inj hs; subst this
        refine ⟨fun ur e => (by cases e), fun _ => ⟨_, (upRegister cf.net ord ur m).1, hn', by rw [e], hreg, ?_⟩⟩
        rw [e]
        show st.sent ++ (upRegister cf.net ord ur m).2.1 ++ _ = _
        rw [h2, ← List.append_assoc]
      · rename_i hreg
        have := Option.some.inj hs; subst this
        refine ⟨fun ur' e' => ?_, fun e => by rcases e with e | e <;> cases e⟩
        have := RcPhase.reg.inj e'; subst this
        refine ⟨by simpa using hreg, _, hn', by rw [e], ?_⟩
        rw [e]
        show st.sent ++ (upRegister cf.net ord ur m).2.1 = _
        rw [h2, ← List.append_assoc]
  | lost text =>
    cases hp : st.phase <;> simp only [rcStep, hp] at hs <;> try cases hs
    · exact sent_other (by intro ur e; cases e) (by intro e; cases e) (by intro e; cases e)
    · exact sent_other (by intro ur e; cases e) (by intro e; cases e) (by intro e; cases e)
  | eof =>
    cases hp : st.phase <;> simp only [rcStep, hp] at hs <;> try cases hs
    exact sent_other (by intro ur e; cases e) (by intro e; cases e) (by intro e; cases e)
  | sent =>
    simp only [rcStep, rcSent] at hs
    cases hp : st.phase with
    | tellConn =>
      rw [hp] at hs
      have := Option.some.inj hs; subst this
      exact ⟨fun ur e => (by cases e), fun _ => h.2 (.inl hp)⟩
    | tellDisc err =>
      rw [hp] at hs
      cases err with
      | none => have := Option.some.inj hs; subst this; exact sent_other (by intro ur e; cases e) (by intro e; cases e) (by intro e; cases e)
      | some t => have := Option.some.inj hs; subst this; exact sent_other (by intro ur e; cases e) (by intro e; cases e) (by intro e; cases e)
    | tellErr text temp =>
      rw [hp] at hs
      have := Option.some.inj hs; subst this
      cases temp <;> exact sent_other (by intro ur e; cases e) (by intro e; cases e) (by intro e; cases e)
    | _ => rw [hp] at hs; cases hs

/-- C99: on every connection that is registered, the bouncer has sent what the registration takes (the messages of
`C69`, in answer to the messages `msgs` of the server) and then the connect commands of the network, each one that can
be parsed, once and in their order. -/
theorem C99_commands {parse : Str → Option Msg} {cf : RcConf} {t0 : Nat} {ops : List RcOp} {st : RcState}
    (hs : rcRun parse cf (rcInit cf t0) ops = some st) (hp : st.phase = .reading) :
    ∃ msgs ur, (∀ o ∈ msgs, o.net = cf.net) ∧ OpenAfter cf.net msgs ur ∧ ur.registered = true ∧
      st.sent = (urStart cf.net).2 ++ (urRun (urStart cf.net).1 msgs).2 ++ cf.commands.filterMap parse := by
  have : ∀ {ops : List RcOp} {a b : RcState}, SentInv parse cf a → rcRun parse cf a ops = some b → SentInv parse cf b := by
    intro ops
    induction ops with
    | nil => intro a b h e; have := Option.some.inj e; subst this; exact h
    | cons op ops ih =>
      intro a b h e
      unfold rcRun at e
      cases h1 : rcStep parse cf a op with
      | none => rw [h1] at e; cases e
      | some c => rw [h1] at e; exact ih (sent_step h h1) e
  exact (this (sent_other (by intro ur e; cases e) (by intro e; cases e) (by intro e; cases e)) hs).2 (.inr hp)

example : ∃ st, rcRun (fun s => if s = b!"MODE alice +i" then some ⟨b!"MODE", [b!"alice", b!"+i"]⟩ else none) rcCfg (rcInit rcCfg 0)
      [.start true, .top 0, .wake, .dialled, .server [] ⟨b!"001", [b!"alice"]⟩ [], .sent] = some st ∧ st.phase = .reading ∧
    st.sent.getLast? = some ⟨b!"MODE", [b!"alice", b!"+i"]⟩ :=
  ⟨_, rfl, by decide, by decide⟩

/-! ## What clients are told -/

/-- The last of these events that is a connection or an error. -/
def lastNews (es : List RcEvent) : Option RcEvent :=
  es.reverse.find? (fun e => match e with | .connected => true | .error _ => true | _ => false)

private theorem view_spec (bn : Bool) (es : List RcEvent) :
    let v := es.foldl (fun v e => (rcNotify bn v e).1) ⟨none, false⟩
    (v.stopped = true ↔ RcEvent.stop ∈ es) ∧
    (∀ t, v.lastError = some t ↔ lastNews es = some (.error t)) := by
  induction es using snocInd with
  | nil => exact ⟨by simp, fun t => by simp [lastNews]⟩
  | snoc l x ih =>
    have hn : ∀ y, lastNews (l ++ [y]) = (match y with | .connected => some y | .error _ => some y | _ => lastNews l) := by
      intro y
      unfold lastNews
      rw [List.reverse_append]
      cases y <;> rfl
    rw [List.foldl_append, hn]
    simp only [List.foldl_cons, List.foldl_nil, List.mem_append, List.mem_singleton]
    generalize List.foldl (fun v e => (rcNotify bn v e).1) (⟨none, false⟩ : RcView) l = v at ih ⊢
    obtain ⟨h1, h2⟩ := ih
    cases x with
    | connected => exact ⟨by simp [rcNotify, h1], fun t => by simp [rcNotify]⟩
    | disconnected f => exact ⟨by simp [rcNotify, h1], fun t => h2 t⟩
    | error s => exact ⟨by simp [rcNotify, h1], fun t => by simp [rcNotify]⟩
    | stop => exact ⟨by simp [rcNotify], fun t => h2 t⟩

private theorem notices_snoc (bn : Bool) (v : RcView) (es : List RcEvent) (e : RcEvent) :
    rcNotices bn v (es ++ [e]) = rcNotices bn v es ++ (rcNotify bn (es.foldl (fun v e => (rcNotify bn v e).1) v) e).2 := by
  induction es generalizing v with
  | nil => simp [rcNotices]
  | cons x l ih => simp only [List.cons_append, rcNotices, ih, List.foldl_cons, List.append_assoc]

/-- C99: a client of the network is told about an error exactly if it is news: the last thing it knows is not the same
error, and the network has not been removed. -/
theorem C99_told_error (bn : Bool) (es : List RcEvent) (t : Str) :
    (RcEvent.stop ∉ es ∧ lastNews es ≠ some (.error t) →
      rcNotices bn ⟨none, false⟩ (es ++ [.error t]) = rcNotices bn ⟨none, false⟩ es ++ [.failed t]) ∧
    (RcEvent.stop ∈ es ∨ lastNews es = some (.error t) →
      rcNotices bn ⟨none, false⟩ (es ++ [.error t]) = rcNotices bn ⟨none, false⟩ es) := by
  have hv := view_spec bn es
  rw [notices_snoc]
  generalize List.foldl (fun v e => (rcNotify bn v e).1) (⟨none, false⟩ : RcView) es = v at hv ⊢
  obtain ⟨h1, h2⟩ := hv
  simp only [rcNotify]
  constructor
  · rintro ⟨a, b⟩
    rw [if_pos ⟨Bool.eq_false_iff.2 (fun e => a (h1.1 e)), fun e => b ((h2 t).1 e)⟩]
  · intro h
    rw [if_neg, List.append_nil]
    rintro ⟨a, b⟩
    rcases h with h | h
    · rw [h1.2 h] at a; cases a
    · exact b ((h2 t).2 h)

/-- C99: a client that has not enabled soju.im/bouncer-networks is told that the network is connected again, and that
it is disconnected unless it has been told an error since it was connected. -/
theorem C99_told_state (es : List RcEvent) :
    rcNotices false ⟨none, false⟩ (es ++ [.connected]) = rcNotices false ⟨none, false⟩ es ++ [.connected] ∧
    ((∀ t, lastNews es ≠ some (.error t)) →
      rcNotices false ⟨none, false⟩ (es ++ [.disconnected true]) = rcNotices false ⟨none, false⟩ es ++ [.disconnected]) ∧
    ((∃ t, lastNews es = some (.error t)) →
      rcNotices false ⟨none, false⟩ (es ++ [.disconnected true]) = rcNotices false ⟨none, false⟩ es) := by
  have hv := view_spec false es
  rw [notices_snoc, notices_snoc]
  generalize List.foldl (fun v e => (rcNotify false v e).1) (⟨none, false⟩ : RcView) es = v at hv ⊢
  obtain ⟨_, h2⟩ := hv
  refine ⟨rfl, fun h => ?_, fun ⟨t, h⟩ => ?_⟩
  · simp only [rcNotify]
    rw [if_pos]
    refine ⟨trivial, ?_, trivial⟩
    cases he : v.lastError with
    | none => rfl
    | some t => exact absurd ((h2 t).1 he) (h t)
  · simp only [rcNotify]
    rw [if_neg, List.append_nil]
    rintro ⟨_, b, _⟩
    have := (h2 t).2 h
    rw [b] at this; cases this

example : rcNotices false ⟨none, false⟩
    [.connected, .disconnected true, .error b!"x", .error b!"x", .error b!"y", .connected, .stop, .error b!"z"] =
    [.connected, .disconnected, .failed b!"x", .failed b!"y", .connected] := by decide

-- a server that demands an account, and one that does not: the hypotheses of `C99_turned_away`
example : TurnsAway ⟨b!"FAIL", [b!"*", b!"ACCOUNT_REQUIRED", b!"log in first"]⟩ ∧ TurnsAway ⟨b!"465", [b!"*", b!"banned"]⟩ :=
  ⟨.inr ⟨rfl, _, rfl⟩, .inl (by decide)⟩

example : ∃ ops st ur, RcReach (fun _ => none) rcCfg 0 ops st ∧ st.phase = .reg ur :=
  ⟨[.start true, .top 0, .wake, .dialled], _, _, ⟨rfl, by decide, by
    intro r hr; simp at hr; subst hr; exact .inr (by decide)⟩, rfl⟩

end Verif.Props
