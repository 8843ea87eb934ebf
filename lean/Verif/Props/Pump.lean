import Verif.Model.Pump
import Verif.Proof.Util

/-! # C111: messages are handled in the order they came, each once -/

namespace Verif.Props
open Verif.Model Verif.Proof

/-! ## Specification -/

/-- What the other side of a connection sent since it was made, and whether it was made. -/
def sentOn (num : Nat) (ops : List PmOp) : Option (List Msg) :=
  ops.foldl (fun s op => match op with
    | .opens n => if n = num then some (s.getD []) else s
    | .arrives n m => if n = num then s.map (· ++ [m]) else s
    | _ => s) none

/-- The messages of a connection that were handled, in order. -/
def handledOf (num : Nat) (log : List PmDone) : List Msg :=
  log.filterMap (fun d => match d with
    | .registration n m => if n = num then some m else none
    | .handled (.message n m) => if n = num then some m else none
    | _ => none)

/-- The messages of a connection that were ignored, in order. -/
def ignoredOf (num : Nat) (log : List PmDone) : List Msg :=
  log.filterMap (fun d => match d with
    | .ignored n m => if n = num then some m else none
    | _ => none)

/-- The connection of an event. -/
def eventConn : PmEvent → Option Nat
  | .connected n => some n
  | .message n _ => some n
  | .disconnected n => some n
  | .other _ => none

/-- The event the loop took. -/
def takenEvent : PmDone → Option PmEvent
  | .registration _ _ => none
  | .handled e => some e
  | .ignored n m => some (.message n m)

/-- The events the loop took, in order. -/
def takenEvents (log : List PmDone) : List PmEvent := log.filterMap takenEvent

/-- What was done for a connection, in order. -/
def storyOf (num : Nat) (log : List PmDone) : List PmDone :=
  log.filter (fun d => match d with
    | .registration n _ => n = num
    | .handled e => eventConn e = some num
    | .ignored n _ => n = num)

/-- The events of a connection: it comes, there are messages, it goes. -/
def lifeOf (num : Nat) (ms : List Msg) : List PmEvent := .connected num :: ms.map (.message num) ++ [.disconnected num]

/-- Steps of the loop. -/
def takesOf (ops : List PmOp) : Nat := ops.countP (fun op => match op with
  | .takes _ _ => true
  | _ => false)

/-! ## Proofs -/

private theorem run_snoc (cap : Nat) (ops : List PmOp) (op : PmOp) : pmRun cap (ops ++ [op]) = pmStep cap (pmRun cap ops) op := by
  unfold pmRun; rw [List.foldl_append]; rfl

private theorem get_set (st : PmState) (n : Nat) (f : PmConn → PmConn) (hf : ∀ c, (f c).num = c.num) (num : Nat) :
    pmGet (pmSet st n f) num = if n = num then (pmGet st num).map f else pmGet st num := by
  unfold pmGet pmSet
  dsimp only
  induction st.conns with
  | nil => split <;> rfl
  | cons c cs ih =>
    rw [List.map_cons, List.find?_cons, List.find?_cons]
    have e : (if c.num = n then f c else c).num = c.num := by split; exact hf c; rfl
    rw [e]
    by_cases hc : c.num = num
    · simp only [hc, decide_true]
      by_cases hn : n = num
      · rw [if_pos hn, if_pos hn.symm]; rfl
      · rw [if_neg hn, if_neg (fun h => hn h.symm)]
    · simp only [hc, decide_false]
      exact ih

private def held (c : PmConn) : List Msg :=
  match c.reader with
  | .holding m => [m]
  | _ => []

private def queueOf (num : Nat) (q : List PmEvent) : List PmEvent := q.filter (fun e => eventConn e = some num)

private def hMsg : PmDone → Option Msg
  | .handled (.message _ m) => some m
  | _ => none

private def iMsg : PmDone → Option Msg
  | .ignored _ m => some m
  | _ => none

private def eMsg : PmDone → Option Msg
  | .handled (.message _ m) => some m
  | .ignored _ m => some m
  | _ => none

private def Phase (r : PmReader) (ann fin : Bool) (ms : List Msg) : Prop :=
  match r with
  | .registering | .announcing => ann = false ∧ fin = false ∧ ms = []
  | .reading | .holding _ | .ending => ann = true ∧ fin = false
  | .gone => fin = ann ∧ (ann = false → ms = [])

private def pushed (num : Nat) (ann fin : Bool) (ms : List Msg) : List PmEvent :=
  (if ann then [.connected num] else []) ++ ms.map (.message num) ++ (if fin then [.disconnected num] else [])

private structure Track (num : Nat) (c : PmConn) (L : List PmDone) (Q : List PmEvent) (reg : List Msg) (tail : List PmDone)
    (ms : List Msg) (ann fin : Bool) : Prop where
  story : L = reg.map (.registration num) ++ tail
  events : tail.filterMap takenEvent ++ Q = pushed num ann fin ms
  full : ∀ d ∈ tail, takenEvent d ≠ none
  sum : reg ++ ms ++ held c ++ c.unread = c.arrived
  order : tail.filterMap hMsg ++ tail.filterMap iMsg = tail.filterMap eMsg
  shut : tail.filterMap iMsg ≠ [] → c.closed = true
  phase : Phase c.reader ann fin ms

private def PmInv (num : Nat) (st : PmState) : Prop :=
  match pmGet st num with
  | none => storyOf num st.log = [] ∧ queueOf num st.queue = []
  | some c => ∃ reg tail ms ann fin, Track num c (storyOf num st.log) (queueOf num st.queue) reg tail ms ann fin

private theorem get_num {st : PmState} {num : Nat} {c : PmConn} (h : pmGet st num = some c) : c.num = num := by
  unfold pmGet at h
  simpa using List.find?_some h

/-- A change of one connection that leaves log and queue alone. -/
private theorem inv_set (num n : Nat) (st : PmState) (f : PmConn → PmConn) (hf : ∀ c, (f c).num = c.num) (h : PmInv num st)
    (hc : ∀ c reg tail ms ann fin, n = num → pmGet st num = some c →
      Track num c (storyOf num st.log) (queueOf num st.queue) reg tail ms ann fin →
      ∃ reg tail ms ann fin, Track num (f c) (storyOf num st.log) (queueOf num st.queue) reg tail ms ann fin) :
    PmInv num (pmSet st n f) := by
  unfold PmInv at h ⊢
  rw [get_set st n f hf]
  by_cases hn : n = num
  · rw [if_pos hn]
    cases hg : pmGet st num with
    | none => rw [hg] at h; exact h
    | some c =>
      rw [hg] at h
      obtain ⟨reg, tail, ms, ann, fin, t⟩ := h
      exact hc c reg tail ms ann fin hn hg t
  · rw [if_neg hn]
    exact h

private theorem inv_step (cap num : Nat) (st : PmState) (op : PmOp) (h : PmInv num st) : PmInv num (pmStep cap st op) := by
  cases op with
  | opens n =>
    unfold pmStep
    dsimp only
    split
    · exact h
    · rename_i hn
      unfold PmInv at h ⊢
      have e : pmGet { st with conns := st.conns ++ [⟨n, [], [], .registering, false⟩] } num =
          (pmGet st num).or (if n = num then some ⟨n, [], [], .registering, false⟩ else none) := by
        unfold pmGet
        dsimp only
        rw [List.find?_append]
        by_cases hnn : n = num
        · rw [if_pos hnn, List.find?_cons]; simp [hnn]
        · rw [if_neg hnn, List.find?_cons]; simp [hnn]
      rw [e]
      cases hg : pmGet st num with
      | some c =>
        rw [hg] at h
        exact h
      | none =>
        rw [hg] at h
        by_cases hnn : n = num
        · rw [if_pos hnn]
          refine ⟨[], [], [], false, false, ⟨h.1, ?_, by simp, rfl, rfl, by simp, ⟨rfl, rfl, rfl⟩⟩⟩
          show [] ++ queueOf num st.queue = _
          rw [h.2]; rfl
        · rw [if_neg hnn]; exact h
  | arrives n m =>
    unfold pmStep
    dsimp only
    refine inv_set num n st _ (fun _ => rfl) h ?_
    intro c reg tail ms ann fin _ _ t
    refine ⟨reg, tail, ms, ann, fin, { t with sum := ?_ }⟩
    show reg ++ ms ++ held c ++ (c.unread ++ [m]) = c.arrived ++ [m]
    rw [← t.sum]; simp
  | reads n v =>
    unfold pmStep
    dsimp only
    cases hg : pmGet st n with
    | none => exact h
    | some c0 =>
      have hn0 := get_num hg
      show PmInv num (pmRead st c0 v)
      unfold pmRead
      cases hu : c0.unread with
      | nil => exact h
      | cons m rest =>
        dsimp only
        cases hr : c0.reader with
        | registering =>
          dsimp only
          -- the log gets a line, and the connection changes
          have key : ∀ (f : PmConn → PmConn), (∀ c, (f c).num = c.num) → (f c0).unread = rest → (f c0).arrived = c0.arrived →
              (f c0).closed = c0.closed → ((f c0).reader = .registering ∨ (f c0).reader = .announcing ∨ (f c0).reader = .gone) →
              PmInv num (pmSet { st with log := st.log ++ [.registration c0.num m] } c0.num f) := by
            intro f hf1 hf2 hf3 hf4 hf5
            unfold PmInv at h ⊢
            rw [get_set _ _ f hf1, hn0]
            have hget : pmGet { st with log := st.log ++ [.registration n m] } num = pmGet st num := rfl
            rw [hget]
            have hstory : storyOf num (pmSet { st with log := st.log ++ [.registration n m] } n f).log =
                storyOf num st.log ++ (if n = num then [.registration n m] else []) := by
              show storyOf num (st.log ++ [.registration n m]) = _
              unfold storyOf
              rw [List.filter_append, List.filter_cons, List.filter_nil]
              by_cases hnn : n = num <;> simp [hnn]
            have hqueue : queueOf num (pmSet { st with log := st.log ++ [.registration n m] } n f).queue = queueOf num st.queue := rfl
            rw [hstory, hqueue]
            by_cases hnn : n = num
            · subst hnn
              rw [if_pos rfl, if_pos rfl]
              rw [hg] at h ⊢
              obtain ⟨reg, tail, ms, ann, fin, t⟩ := h
              have hp := t.phase
              rw [hr] at hp
              obtain ⟨rfl, rfl, rfl⟩ := hp
              have hev := t.events
              have htl : tail = [] := by
                have h1 : tail.filterMap takenEvent = [] := (List.append_eq_nil_iff.1 hev).1
                cases tail with
                | nil => rfl
                | cons d tl =>
                  exfalso
                  have := t.full d (by simp)
                  rw [List.filterMap_cons] at h1
                  cases hd : takenEvent d with
                  | none => exact this hd
                  | some e => rw [hd] at h1; cases h1
              subst htl
              have hsum := t.sum
              have hh : held c0 = [] := by unfold held; rw [hr]
              rw [hh, hu] at hsum
              have hh' : held (f c0) = [] := by
                unfold held
                rcases hf5 with e | e | e <;> rw [e]
              refine ⟨reg ++ [m], [], [], false, false, ⟨?_, t.events, by simp, ?_, rfl, by simp, ?_⟩⟩
              · rw [t.story]; simp
              · rw [hh', hf2, hf3, ← hsum]; simp
              · rcases hf5 with e | e | e <;> rw [e]
                · exact ⟨rfl, rfl, rfl⟩
                · exact ⟨rfl, rfl, rfl⟩
                · exact ⟨rfl, fun _ => rfl⟩
            · rw [if_neg hnn, if_neg hnn, List.append_nil]
              exact h
          cases v with
          | goesOn => exact key _ (fun _ => rfl) rfl rfl rfl (Or.inl hr)
          | registered => exact key _ (fun _ => rfl) rfl rfl rfl (Or.inr (Or.inl rfl))
          | fails => exact key _ (fun _ => rfl) rfl rfl rfl (Or.inr (Or.inr rfl))
        | reading =>
          dsimp only
          refine inv_set num c0.num st _ (fun _ => rfl) h ?_
          intro c reg tail ms ann fin hnn hgc t
          have : c = c0 := by
            rw [← hnn, hn0, hg] at hgc
            exact (Option.some.inj hgc).symm
          subst this
          have hp := t.phase
          rw [hr] at hp
          refine ⟨reg, tail, ms, ann, fin, { t with sum := ?_, phase := hp }⟩
          have hsum := t.sum
          have hh : held c = [] := by unfold held; rw [hr]
          rw [hh, hu] at hsum
          rw [← hsum]
          show reg ++ ms ++ [m] ++ rest = _
          simp
        | _ => exact h
  | sends n =>
    unfold pmStep
    dsimp only
    cases hg : pmGet st n with
    | none => exact h
    | some c0 =>
      have hn0 := get_num hg
      show PmInv num (pmSend cap st c0)
      unfold pmSend
      split
      · exact h
      · have key : ∀ (e : PmEvent) (f : PmConn → PmConn), eventConn e = some n → (∀ c, (f c).num = c.num) →
            (∀ reg tail ms ann fin, n = num → Track num c0 (storyOf num st.log) (queueOf num st.queue) reg tail ms ann fin →
              ∃ reg tail ms ann fin, Track num (f c0) (storyOf num st.log) (queueOf num st.queue ++ [e]) reg tail ms ann fin) →
            PmInv num (pmSet { st with queue := st.queue ++ [e] } c0.num f) := by
          intro e f he hf1 hf2
          unfold PmInv at h ⊢
          rw [get_set _ _ f hf1, hn0]
          have hget : pmGet { st with queue := st.queue ++ [e] } num = pmGet st num := rfl
          rw [hget]
          have hq : queueOf num (pmSet { st with queue := st.queue ++ [e] } n f).queue =
              queueOf num st.queue ++ (if n = num then [e] else []) := by
            show queueOf num (st.queue ++ [e]) = _
            unfold queueOf
            rw [List.filter_append, List.filter_cons, List.filter_nil, he]
            by_cases hnn : n = num <;> simp [hnn]
          have hl : storyOf num (pmSet { st with queue := st.queue ++ [e] } n f).log = storyOf num st.log := rfl
          rw [hl, hq]
          by_cases hnn : n = num
          · subst hnn
            rw [if_pos rfl, if_pos rfl]
            rw [hg] at h ⊢
            obtain ⟨reg, tail, ms, ann, fin, t⟩ := h
            exact hf2 reg tail ms ann fin rfl t
          · rw [if_neg hnn, if_neg hnn, List.append_nil]
            exact h
        cases hr : c0.reader with
        | announcing =>
          dsimp only
          rw [hn0] at key ⊢
          refine key _ _ rfl (fun _ => rfl) ?_
          intro reg tail ms ann fin hnn t
          have hp := t.phase
          rw [hr] at hp
          obtain ⟨rfl, rfl, rfl⟩ := hp
          refine ⟨reg, tail, [], true, false, ⟨t.story, ?_, t.full, ?_, t.order, t.shut, ⟨rfl, rfl⟩⟩⟩
          · rw [← List.append_assoc, t.events, hnn]; rfl
          · have hs := t.sum
            have hh : held c0 = [] := by unfold held; rw [hr]
            rw [hh] at hs
            exact hs
        | holding m =>
          dsimp only
          rw [hn0] at key ⊢
          refine key _ _ rfl (fun _ => rfl) ?_
          intro reg tail ms ann fin hnn t
          have hp := t.phase
          rw [hr] at hp
          obtain ⟨rfl, rfl⟩ := hp
          refine ⟨reg, tail, ms ++ [m], true, false, ⟨t.story, ?_, t.full, ?_, t.order, t.shut, ⟨rfl, rfl⟩⟩⟩
          · rw [← List.append_assoc, t.events, hnn]; simp [pushed]
          · have hs := t.sum
            have hh : held c0 = [m] := by unfold held; rw [hr]
            rw [hh] at hs
            show reg ++ (ms ++ [m]) ++ [] ++ c0.unread = c0.arrived
            rw [← hs]; simp
        | ending =>
          dsimp only
          rw [hn0] at key ⊢
          refine key _ _ rfl (fun _ => rfl) ?_
          intro reg tail ms ann fin hnn t
          have hp := t.phase
          rw [hr] at hp
          obtain ⟨rfl, rfl⟩ := hp
          refine ⟨reg, tail, ms, true, true, ⟨t.story, ?_, t.full, ?_, t.order, t.shut, ⟨rfl, by simp⟩⟩⟩
          · rw [← List.append_assoc, t.events, hnn]; simp [pushed]
          · have hs := t.sum
            have hh : held c0 = [] := by unfold held; rw [hr]
            rw [hh] at hs
            exact hs
        | _ => exact h
  | eof n =>
    unfold pmStep
    dsimp only
    refine inv_set num n st _ ?_ h ?_
    · intro c
      split
      · unfold pmEnds; split <;> rfl
      · rfl
    · intro c reg tail ms ann fin _ _ t
      split
      · unfold pmEnds
        split
        · rename_i hr
          have hp := t.phase
          rw [hr] at hp
          obtain ⟨rfl, rfl, rfl⟩ := hp
          refine ⟨reg, tail, [], false, false, { t with sum := ?_, phase := ⟨rfl, fun _ => rfl⟩ }⟩
          have hs := t.sum; unfold held at hs; rw [hr] at hs; exact hs
        · rename_i hr
          have hp := t.phase
          rw [hr] at hp
          obtain ⟨rfl, rfl⟩ := hp
          refine ⟨reg, tail, ms, true, false, { t with sum := ?_, phase := ⟨rfl, rfl⟩ }⟩
          have hs := t.sum; unfold held at hs; rw [hr] at hs; exact hs
        · exact ⟨_, _, _, _, _, t⟩
      · exact ⟨_, _, _, _, _, t⟩
  | breaks n =>
    unfold pmStep
    dsimp only
    refine inv_set num n st _ ?_ h ?_
    · intro c
      unfold pmEnds; split <;> rfl
    · intro c reg tail ms ann fin _ _ t
      unfold pmEnds
      split
      · rename_i hr
        have hp := t.phase
        rw [hr] at hp
        obtain ⟨rfl, rfl, rfl⟩ := hp
        refine ⟨reg, tail, [], false, false, { t with sum := ?_, phase := ⟨rfl, fun _ => rfl⟩ }⟩
        have hs := t.sum; unfold held at hs; rw [hr] at hs; exact hs
      · rename_i hr
        have hp := t.phase
        rw [hr] at hp
        obtain ⟨rfl, rfl⟩ := hp
        refine ⟨reg, tail, ms, true, false, { t with sum := ?_, phase := ⟨rfl, rfl⟩ }⟩
        have hs := t.sum; unfold held at hs; rw [hr] at hs; exact hs
      · exact ⟨_, _, _, _, _, t⟩
  | closes n =>
    unfold pmStep
    dsimp only
    refine inv_set num n st _ (fun _ => rfl) h ?_
    intro c reg tail ms ann fin _ _ t
    exact ⟨reg, tail, ms, ann, fin, ⟨t.story, t.events, t.full, t.sum, t.order, fun _ => rfl, t.phase⟩⟩
  | injects w =>
    unfold pmStep
    dsimp only
    split
    · exact h
    · unfold PmInv at h ⊢
      have hq : queueOf num (st.queue ++ [.other w]) = queueOf num st.queue := by
        unfold queueOf
        rw [List.filter_append]
        simp [eventConn]
      show (match pmGet st num with
        | none => storyOf num st.log = [] ∧ queueOf num (st.queue ++ [.other w]) = []
        | some c => ∃ reg tail ms ann fin, Track num c (storyOf num st.log) (queueOf num (st.queue ++ [.other w])) reg tail ms ann fin)
      rw [hq]
      exact h
  | takes closing stop =>
    unfold pmStep
    dsimp only
    split
    · exact h
    · cases hq : st.queue with
      | nil => exact h
      | cons e rest =>
        dsimp only
        unfold PmInv at h ⊢
        have hget : pmGet ⟨st.conns.map (fun c => if closing.contains c.num then { c with closed := true } else c),
              rest, st.log ++ [pmHandle st e], stop⟩ num =
            (pmGet st num).map (fun c => if closing.contains c.num then { c with closed := true } else c) := by
          unfold pmGet
          dsimp only
          induction st.conns with
          | nil => rfl
          | cons c cs ih =>
            rw [List.map_cons, List.find?_cons, List.find?_cons]
            have : (if closing.contains c.num = true then { c with closed := true } else c).num = c.num := by split <;> rfl
            rw [this]
            by_cases hc : c.num = num
            · simp [hc]
            · simp only [hc, decide_false]; exact ih
        rw [hget]
        rw [hq] at h
        have hqo : queueOf num (e :: rest) = (if eventConn e = some num then [e] else []) ++ queueOf num rest := by
          unfold queueOf
          rw [List.filter_cons]
          by_cases he : eventConn e = some num <;> simp [he]
        rw [hqo] at h
        have hso : storyOf num (st.log ++ [pmHandle st e]) = storyOf num st.log ++
            (if eventConn e = some num then [pmHandle st e] else []) := by
          unfold storyOf
          rw [List.filter_append]
          congr 1
          cases e with
          | message n m =>
            unfold pmHandle
            dsimp only
            by_cases hnn : n = num
            · subst hnn; split <;> simp [eventConn]
            · have : ¬ (eventConn (.message n m) = some num) := by simp [eventConn, hnn]
              rw [if_neg this]
              split <;> simp [eventConn, hnn]
          | connected n => by_cases hnn : n = num <;> simp [pmHandle, eventConn, hnn]
          | disconnected n => by_cases hnn : n = num <;> simp [pmHandle, eventConn, hnn]
          | other w => simp [pmHandle, eventConn]
        dsimp only
        rw [hso]
        cases hg : pmGet st num with
        | none =>
          rw [hg] at h
          obtain ⟨h1, h2⟩ := h
          have h3 := (List.append_eq_nil_iff.1 h2)
          have : ¬ (eventConn e = some num) := by intro he; rw [if_pos he] at h3; cases h3.1
          rw [if_neg this]
          exact ⟨by rw [h1]; rfl, h3.2⟩
        | some c =>
          rw [hg] at h
          obtain ⟨reg, tail, ms, ann, fin, t⟩ := h
          -- the connection, possibly closed
          have close : ∀ L Q tl, Track num c L Q reg tl ms ann fin →
              ∃ reg tail ms ann fin, Track num (if closing.contains c.num = true then { c with closed := true } else c) L Q reg tail ms ann fin := by
            intro L Q tl t
            split
            · exact ⟨reg, tl, ms, ann, fin, ⟨t.story, t.events, t.full, t.sum, t.order, fun _ => rfl, t.phase⟩⟩
            · exact ⟨_, _, _, _, _, t⟩
          by_cases he : eventConn e = some num
          · rw [if_pos he]
            rw [if_pos he] at t
            have hev : takenEvent (pmHandle st e) = some e := by
              cases e with
              | message n m => unfold pmHandle; dsimp only; split <;> rfl
              | _ => rfl
            refine close _ _ (tail ++ [pmHandle st e]) ⟨?_, ?_, ?_, t.sum, ?_, ?_, t.phase⟩
            · rw [t.story, List.append_assoc]
            · rw [List.filterMap_append, List.append_assoc, ← t.events]
              simp [hev]
            · intro d hd
              rcases List.mem_append.1 hd with hd | hd
              · exact t.full d hd
              · rw [List.mem_singleton] at hd; subst hd; rw [hev]; simp
            · rw [List.filterMap_append, List.filterMap_append, List.filterMap_append, ← t.order]
              cases e with
              | message n m =>
                have hn : n = num := by simpa [eventConn] using he
                unfold pmHandle
                dsimp only
                split
                · simp [hMsg, iMsg, eMsg]
                · rename_i hcl
                  have : tail.filterMap iMsg = [] := by
                    apply Classical.byContradiction
                    intro hne
                    have hc := t.shut hne
                    apply hcl
                    rw [hn, hg]
                    exact hc
                  rw [this]
                  simp [hMsg, iMsg, eMsg]
              | connected n =>
                show tail.filterMap hMsg ++ [] ++ (tail.filterMap iMsg ++ []) = tail.filterMap hMsg ++ tail.filterMap iMsg ++ []
                simp only [List.append_nil]
              | disconnected n =>
                show tail.filterMap hMsg ++ [] ++ (tail.filterMap iMsg ++ []) = tail.filterMap hMsg ++ tail.filterMap iMsg ++ []
                simp only [List.append_nil]
              | other w =>
                show tail.filterMap hMsg ++ [] ++ (tail.filterMap iMsg ++ []) = tail.filterMap hMsg ++ tail.filterMap iMsg ++ []
                simp only [List.append_nil]
            · intro hne
              cases e with
              | message n m =>
                have hn : n = num := by simpa [eventConn] using he
                unfold pmHandle at hne
                dsimp only at hne
                split at hne
                · rename_i hcl
                  rw [hn, hg] at hcl
                  exact hcl
                · rw [List.filterMap_append] at hne
                  exact t.shut (by simpa [iMsg] using hne)
              | connected n => rw [List.filterMap_append] at hne; exact t.shut (by simpa [iMsg, pmHandle] using hne)
              | disconnected n => rw [List.filterMap_append] at hne; exact t.shut (by simpa [iMsg, pmHandle] using hne)
              | other w => rw [List.filterMap_append] at hne; exact t.shut (by simpa [iMsg, pmHandle] using hne)
          · rw [if_neg he, List.append_nil]
            rw [if_neg he, List.nil_append] at t
            exact close _ _ tail t

private theorem inv_run (cap num : Nat) (ops : List PmOp) : PmInv num (pmRun cap ops) := by
  induction ops using snocInd with
  | nil => exact ⟨rfl, rfl⟩
  | snoc ops op ih => rw [run_snoc]; exact inv_step cap num _ op ih

private theorem sent_snoc (num : Nat) (ops : List PmOp) (op : PmOp) : sentOn num (ops ++ [op]) =
    (match op with
    | .opens n => if n = num then some ((sentOn num ops).getD []) else sentOn num ops
    | .arrives n m => if n = num then (sentOn num ops).map (· ++ [m]) else sentOn num ops
    | _ => sentOn num ops) := by
  unfold sentOn
  rw [List.foldl_append]
  rfl

private theorem map_set (st : PmState) (n : Nat) (f : PmConn → PmConn) (hf : ∀ c, (f c).num = c.num) (ha : ∀ c, (f c).arrived = c.arrived)
    (num : Nat) : (pmGet (pmSet st n f) num).map (·.arrived) = (pmGet st num).map (·.arrived) := by
  rw [get_set st n f hf]
  split
  · cases pmGet st num with
    | none => rfl
    | some c => show some (f c).arrived = some c.arrived; rw [ha]
  · rfl

private theorem arrived_step (cap num : Nat) (st : PmState) (op : PmOp) : (pmGet (pmStep cap st op) num).map (·.arrived) =
    (match op with
    | .opens n => if n = num then some (((pmGet st num).map (·.arrived)).getD []) else (pmGet st num).map (·.arrived)
    | .arrives n m => if n = num then ((pmGet st num).map (·.arrived)).map (· ++ [m]) else (pmGet st num).map (·.arrived)
    | _ => (pmGet st num).map (·.arrived)) := by
  cases op with
  | opens n =>
    unfold pmStep
    dsimp only
    split
    · rename_i hn
      by_cases hnn : n = num
      · subst hnn
        rw [if_pos rfl]
        cases hg : pmGet st n with
        | none => rw [hg] at hn; cases hn
        | some c => rfl
      · rw [if_neg hnn]
    · rename_i hn
      unfold pmGet at hn ⊢
      dsimp only
      rw [List.find?_append]
      by_cases hnn : n = num
      · subst hnn
        rw [if_pos rfl]
        cases hg : st.conns.find? (fun c => c.num = n) with
        | none => simp
        | some c => rw [hg] at hn; exact absurd rfl hn
      · rw [if_neg hnn]
        cases hg : st.conns.find? (fun c => c.num = num) with
        | none => simp [hnn]
        | some c => simp
  | arrives n m =>
    unfold pmStep
    dsimp only
    rw [get_set _ _ _ (by intro _; rfl)]
    by_cases hnn : n = num
    · rw [if_pos hnn, if_pos hnn]
      cases pmGet st num <;> rfl
    · rw [if_neg hnn, if_neg hnn]
  | reads n v =>
    unfold pmStep
    dsimp only
    cases hg : pmGet st n with
    | none => rfl
    | some c0 =>
      dsimp only
      unfold pmRead
      split
      · rfl
      · split
        · dsimp only
          cases v <;> exact (map_set _ _ _ (by intro _; rfl) (by intro _; rfl) num).trans rfl
        · exact (map_set _ _ _ (by intro _; rfl) (by intro _; rfl) num).trans rfl
        · rfl
  | sends n =>
    unfold pmStep
    dsimp only
    cases hg : pmGet st n with
    | none => rfl
    | some c0 =>
      dsimp only
      unfold pmSend
      split
      · rfl
      · split
        · exact (map_set _ _ _ (by intro _; rfl) (by intro _; rfl) num).trans rfl
        · exact (map_set _ _ _ (by intro _; rfl) (by intro _; rfl) num).trans rfl
        · exact (map_set _ _ _ (by intro _; rfl) (by intro _; rfl) num).trans rfl
        · rfl
  | eof n =>
    unfold pmStep
    dsimp only
    refine map_set st _ _ ?_ ?_ num
    · intro c; split
      · unfold pmEnds; split <;> rfl
      · rfl
    · intro c; split
      · unfold pmEnds; split <;> rfl
      · rfl
  | breaks n =>
    unfold pmStep
    dsimp only
    refine map_set st _ _ ?_ ?_ num
    · intro c; unfold pmEnds; split <;> rfl
    · intro c; unfold pmEnds; split <;> rfl
  | closes n =>
    unfold pmStep
    dsimp only
    exact (map_set _ _ _ (by intro _; rfl) (by intro _; rfl) num).trans rfl
  | injects w =>
    unfold pmStep
    dsimp only
    split <;> rfl
  | takes closing stop =>
    unfold pmStep
    dsimp only
    split
    · rfl
    · split
      · rfl
      · unfold pmGet
        dsimp only
        induction st.conns with
        | nil => rfl
        | cons c cs ih =>
          rw [List.map_cons, List.find?_cons, List.find?_cons]
          have : (if closing.contains c.num = true then { c with closed := true } else c).num = c.num := by split <;> rfl
          rw [this]
          by_cases hc : c.num = num
          · simp only [hc, decide_true]
            show some (ite _ _ _ : PmConn).arrived = some c.arrived
            split <;> rfl
          · simp only [hc, decide_false]; exact ih

private theorem arrived_run (cap num : Nat) (ops : List PmOp) : (pmGet (pmRun cap ops) num).map (·.arrived) = sentOn num ops := by
  induction ops using snocInd with
  | nil => rfl
  | snoc ops op ih => rw [run_snoc, arrived_step, sent_snoc, ih]

private theorem handled_story (num : Nat) (log : List PmDone) : handledOf num (storyOf num log) = handledOf num log := by
  unfold handledOf storyOf
  rw [List.filterMap_filter]
  congr 1
  funext d
  cases d with
  | registration n m => by_cases h : n = num <;> simp [h]
  | handled e => cases e <;> simp [eventConn]
  | ignored n m => simp

private theorem ignored_story (num : Nat) (log : List PmDone) : ignoredOf num (storyOf num log) = ignoredOf num log := by
  unfold ignoredOf storyOf
  rw [List.filterMap_filter]
  congr 1
  funext d
  cases d with
  | registration n m => simp
  | handled e => simp
  | ignored n m => by_cases h : n = num <;> simp [h]

private theorem story_mem {num : Nat} {log : List PmDone} {d : PmDone} (h : d ∈ storyOf num log) : (match d with
    | .registration n _ => n = num
    | .handled e => eventConn e = some num
    | .ignored n _ => n = num) := by
  have := (List.mem_filter.1 h).2
  cases d <;> simpa using this

private theorem fm_congr {α β : Type} {f g : α → Option β} {l : List α} (h : ∀ a ∈ l, f a = g a) : l.filterMap f = l.filterMap g := by
  induction l with
  | nil => rfl
  | cons a l ih =>
    rw [List.filterMap_cons, List.filterMap_cons, h a (by simp), ih (fun b hb => h b (by simp [hb]))]

private theorem handled_tail (num : Nat) (tail : List PmDone) (h : ∀ d ∈ tail, d ∈ storyOf num tail) (hf : ∀ d ∈ tail, takenEvent d ≠ none) :
    handledOf num tail = tail.filterMap hMsg ∧ ignoredOf num tail = tail.filterMap iMsg := by
  unfold handledOf ignoredOf
  constructor
  · apply fm_congr
    intro d hd
    have hm := story_mem (h d hd)
    have := hf d hd
    cases d with
    | registration n m => exact absurd rfl this
    | handled e =>
      cases e with
      | message n m =>
        have hn : n = num := by simpa [eventConn] using hm
        simp [hMsg, hn]
      | _ => rfl
    | ignored n m => rfl
  · apply fm_congr
    intro d hd
    have hm := story_mem (h d hd)
    cases d with
    | registration n m => rfl
    | handled e => rfl
    | ignored n m =>
      have hn : n = num := hm
      simp [iMsg, hn]

private theorem events_msgs (tail : List PmDone) (evs : List PmEvent) (h : tail.filterMap takenEvent = evs) :
    tail.filterMap eMsg = evs.filterMap (fun e => match e with
      | .message _ m => some m
      | _ => none) := by
  subst h
  rw [List.filterMap_filterMap]
  congr 1
  funext d
  cases d with
  | registration n m => rfl
  | handled e => cases e <;> rfl
  | ignored n m => rfl

private theorem pushed_msgs (num : Nat) (ann fin : Bool) (ms : List Msg) : (pushed num ann fin ms).filterMap (fun e => match e with
      | .message _ m => some m
      | _ => none) = ms := by
  unfold pushed
  rw [List.filterMap_append, List.filterMap_append, List.filterMap_map]
  have : List.filterMap ((fun e => match e with
      | PmEvent.message _ m => some m
      | _ => none) ∘ PmEvent.message num) ms = ms := by
    induction ms with
    | nil => rfl
    | cons m ms ih => rw [List.filterMap_cons]; show m :: _ = _; rw [ih]
  rw [this]
  cases ann <;> cases fin <;> simp

/-- What the invariant says, unfolded. -/
private theorem inv_facts {num : Nat} {st : PmState} {c : PmConn} (h : PmInv num st) (hg : pmGet st num = some c) :
    ∃ reg tail ms ann fin, Track num c (storyOf num st.log) (queueOf num st.queue) reg tail ms ann fin ∧
      handledOf num st.log = reg ++ tail.filterMap hMsg ∧ ignoredOf num st.log = tail.filterMap iMsg := by
  unfold PmInv at h
  rw [hg] at h
  obtain ⟨reg, tail, ms, ann, fin, t⟩ := h
  refine ⟨reg, tail, ms, ann, fin, t, ?_⟩
  have hmem : ∀ d ∈ tail, d ∈ storyOf num tail := by
    intro d hd
    have h1 : d ∈ storyOf num st.log := by rw [t.story]; exact List.mem_append_right _ hd
    unfold storyOf at h1 ⊢
    exact List.mem_filter.2 ⟨hd, (List.mem_filter.1 h1).2⟩
  obtain ⟨h1, h2⟩ := handled_tail num tail hmem t.full
  have hreg : ∀ l : List Msg, handledOf num (l.map (.registration num)) = l ∧ ignoredOf num (l.map (.registration num)) = [] := by
    intro l
    unfold handledOf ignoredOf
    induction l with
    | nil => exact ⟨rfl, rfl⟩
    | cons m l ih =>
      rw [List.map_cons, List.filterMap_cons, List.filterMap_cons]
      simp only [if_pos]
      exact ⟨by rw [ih.1], ih.2⟩
  constructor
  · rw [← handled_story, t.story, ← h1]
    conv => rhs; rw [← (hreg reg).1]
    unfold handledOf; rw [List.filterMap_append]
  · rw [← ignored_story, t.story, ← h2]
    have := (hreg reg).2
    unfold ignoredOf at this ⊢
    rw [List.filterMap_append, this]; rfl

/-! ## Theorems -/

/-- C111: for every schedule of the goroutines of all connections and of the loop, the messages handled for a connection, followed
by the ignored ones, are the first messages the other side sent, in order, each once; and messages are ignored only when the
connection was closed. -/
theorem C111_order (cap : Nat) (ops : List PmOp) (num : Nat) :
    (handledOf num (pmRun cap ops).log ++ ignoredOf num (pmRun cap ops).log) <+: (sentOn num ops).getD [] ∧
    (ignoredOf num (pmRun cap ops).log ≠ [] → ∃ c, pmGet (pmRun cap ops) num = some c ∧ c.closed = true) := by
  have hinv := inv_run cap num ops
  have harr := arrived_run cap num ops
  cases hg : pmGet (pmRun cap ops) num with
  | none =>
    unfold PmInv at hinv
    rw [hg] at hinv
    rw [← handled_story, ← ignored_story, hinv.1]
    exact ⟨List.nil_prefix, fun h => absurd rfl h⟩
  | some c =>
    rw [hg] at harr
    obtain ⟨reg, tail, ms, ann, fin, t, hh, hi⟩ := inv_facts hinv hg
    have hm := events_msgs tail _ rfl
    have hp := pushed_msgs num ann fin ms
    rw [← t.events, List.filterMap_append, ← hm] at hp
    refine ⟨?_, fun hne => ⟨c, rfl, t.shut (by rw [← hi]; exact hne)⟩⟩
    rw [hh, hi, ← harr, List.append_assoc, t.order]
    show _ <+: c.arrived
    rw [← t.sum, ← hp]
    refine ⟨(queueOf num (pmRun cap ops).queue).filterMap (fun e => match e with
        | .message _ m => some m
        | _ => none) ++ held c ++ c.unread, ?_⟩
    simp [List.append_assoc]

/-- C111: what is done for a connection is: messages of the registration; then the loop hears that the connection is there,
then come messages — the next ones the other side sent — and last that the connection is gone; nothing comes before or after this. -/
theorem C111_framed (cap : Nat) (ops : List PmOp) (num : Nat) :
    ∃ reg tail ms, storyOf num (pmRun cap ops).log = reg.map (.registration num) ++ tail ∧
      (∀ d ∈ tail, takenEvent d ≠ none) ∧ takenEvents tail <+: lifeOf num ms ∧
      (reg ++ ms) <+: (sentOn num ops).getD [] := by
  have hinv := inv_run cap num ops
  have harr := arrived_run cap num ops
  cases hg : pmGet (pmRun cap ops) num with
  | none =>
    unfold PmInv at hinv
    rw [hg] at hinv
    exact ⟨[], [], [], hinv.1, by simp, List.nil_prefix, List.nil_prefix⟩
  | some c =>
    rw [hg] at harr
    obtain ⟨reg, tail, ms, ann, fin, t, hh, hi⟩ := inv_facts hinv hg
    refine ⟨reg, tail, ms, t.story, t.full, ?_, ?_⟩
    · have h1 : takenEvents tail <+: pushed num ann fin ms := ⟨_, t.events⟩
      have h2 : pushed num ann fin ms <+: lifeOf num ms := by
        have hp : ann = true ∨ (ann = false ∧ fin = false ∧ ms = []) := by
          have hp := t.phase
          cases hr : c.reader <;> rw [hr] at hp
          · exact Or.inr hp
          · exact Or.inr hp
          · exact Or.inl hp.1
          · exact Or.inl hp.1
          · exact Or.inl hp.1
          · cases ann with
            | true => exact Or.inl rfl
            | false => exact Or.inr ⟨rfl, hp.1, hp.2 rfl⟩
        rcases hp with rfl | ⟨rfl, rfl, rfl⟩
        · cases fin with
          | true => exact ⟨[], by simp [pushed, lifeOf]⟩
          | false => exact ⟨[.disconnected num], by simp [pushed, lifeOf]⟩
        · exact List.nil_prefix
      exact h1.trans h2
    · rw [← harr]
      show _ <+: c.arrived
      rw [← t.sum]
      exact ⟨held c ++ c.unread, by simp [List.append_assoc]⟩

/-- C111: while the connection is not closed, once its goroutine has read everything and the loop has taken the events of the
connection, every message the other side sent has been handled. -/
theorem C111_complete (cap : Nat) (ops : List PmOp) (num : Nat) (c : PmConn) (hg : pmGet (pmRun cap ops) num = some c)
    (hopen : c.closed = false) (hread : c.unread = []) (hheld : ∀ m, c.reader ≠ .holding m)
    (hq : ∀ e ∈ (pmRun cap ops).queue, eventConn e ≠ some num) :
    sentOn num ops = some (handledOf num (pmRun cap ops).log) ∧ ignoredOf num (pmRun cap ops).log = [] := by
  have harr := arrived_run cap num ops
  rw [hg] at harr
  obtain ⟨reg, tail, ms, ann, fin, t, hh, hi⟩ := inv_facts (inv_run cap num ops) hg
  have hQ : queueOf num (pmRun cap ops).queue = [] := by
    unfold queueOf
    rw [List.filter_eq_nil_iff]
    intro e he
    simpa using hq e he
  have hI : tail.filterMap iMsg = [] := by
    apply Classical.byContradiction
    intro hne
    rw [t.shut hne] at hopen
    cases hopen
  have hheld' : held c = [] := by
    unfold held
    split
    · rename_i m hr; exact absurd hr (hheld m)
    · rfl
  have hm := events_msgs tail _ rfl
  have hp := pushed_msgs num ann fin ms
  rw [← t.events, hQ, List.append_nil, ← hm, ← t.order, hI, List.append_nil] at hp
  refine ⟨?_, by rw [hi, hI]⟩
  rw [← harr, hh, hp]
  show some c.arrived = _
  rw [← t.sum, hheld', hread, List.append_nil, List.append_nil]

/-- What a step does to the events taken and waiting. -/
private theorem taken_step (cap : Nat) (st : PmState) (op : PmOp) : (∃ new, takenEvents (pmStep cap st op).log ++ (pmStep cap st op).queue =
    takenEvents st.log ++ st.queue ++ new) ∧
    (takenEvents st.log).length ≤ (takenEvents (pmStep cap st op).log).length ∧
    ((∀ cl s, op ≠ .takes cl s) → (pmStep cap st op).stopped = st.stopped) ∧
    (∀ cl s, op = .takes cl s → st.stopped = false → st.queue ≠ [] →
      (takenEvents (pmStep cap st op).log).length = (takenEvents st.log).length + 1) := by
  have same : ∀ st' : PmState, takenEvents st'.log = takenEvents st.log → (∃ new, st'.queue = st.queue ++ new) → st'.stopped = st.stopped →
      (∀ cl s, op ≠ .takes cl s) → pmStep cap st op = st' → (∃ new, takenEvents (pmStep cap st op).log ++ (pmStep cap st op).queue =
    takenEvents st.log ++ st.queue ++ new) ∧
    (takenEvents st.log).length ≤ (takenEvents (pmStep cap st op).log).length ∧
    ((∀ cl s, op ≠ .takes cl s) → (pmStep cap st op).stopped = st.stopped) ∧
    (∀ cl s, op = .takes cl s → st.stopped = false → st.queue ≠ [] →
      (takenEvents (pmStep cap st op).log).length = (takenEvents st.log).length + 1) := by
    intro st' h1 ⟨new, h2⟩ h3 h4 he
    rw [he, h1, h2, h3]
    exact ⟨⟨new, by simp⟩, Nat.le_refl _, fun _ => rfl, fun cl s h => absurd h (h4 cl s)⟩
  have nil : ∃ new, st.queue = st.queue ++ new := ⟨[], (List.append_nil _).symm⟩
  cases op with
  | opens n =>
    refine same _ ?_ ?_ ?_ (by intros; simp) rfl
    all_goals (unfold pmStep; dsimp only; split)
    all_goals first | rfl | exact nil
  | arrives n m => exact same (pmStep cap st (.arrives n m)) rfl nil rfl (by intros; simp) rfl
  | reads n v =>
    have e : pmStep cap st (.reads n v) = (match pmGet st n with | none => st | some c => pmRead st c v) := rfl
    cases hg : pmGet st n with
    | none => rw [hg] at e; exact same st rfl nil rfl (by intros; simp) e
    | some c =>
      rw [hg] at e
      refine same _ ?_ ?_ ?_ (by intros; simp) e
      all_goals (dsimp only; unfold pmRead; split)
      all_goals first | rfl | exact nil | split
      all_goals first | rfl | exact nil | (dsimp only; split)
      all_goals first | rfl | exact nil | simp [pmSet, takenEvents, takenEvent]
  | sends n =>
    have e : pmStep cap st (.sends n) = (match pmGet st n with | none => st | some c => pmSend cap st c) := rfl
    cases hg : pmGet st n with
    | none => rw [hg] at e; exact same st rfl nil rfl (by intros; simp) e
    | some c =>
      rw [hg] at e
      refine same _ ?_ ?_ ?_ (by intros; simp) e
      all_goals (dsimp only; unfold pmSend; split)
      all_goals first | rfl | exact nil | split
      all_goals first | rfl | exact nil | exact ⟨_, rfl⟩
  | eof n => exact same (pmStep cap st (.eof n)) rfl nil rfl (by intros; simp) rfl
  | breaks n => exact same (pmStep cap st (.breaks n)) rfl nil rfl (by intros; simp) rfl
  | closes n => exact same (pmStep cap st (.closes n)) rfl nil rfl (by intros; simp) rfl
  | injects w =>
    refine same _ ?_ ?_ ?_ (by intros; simp) rfl
    all_goals (unfold pmStep; dsimp only; split)
    all_goals first | rfl | exact nil | exact ⟨_, rfl⟩
  | takes closing stop =>
    have hev : ∀ e, takenEvent (pmHandle st e) = some e := by
      intro e
      cases e with
      | message n m => unfold pmHandle; dsimp only; split <;> rfl
      | _ => rfl
    unfold pmStep
    dsimp only
    split
    · rename_i hs
      exact ⟨⟨[], by simp⟩, Nat.le_refl _, fun h => absurd rfl (h closing stop), fun _ _ _ h => by rw [h] at hs; cases hs⟩
    · split
      · rename_i hq
        exact ⟨⟨[], by simp⟩, Nat.le_refl _, fun h => absurd rfl (h closing stop), fun _ _ _ _ h => absurd hq h⟩
      · rename_i e rest hq
        dsimp only
        have : takenEvents (st.log ++ [pmHandle st e]) = takenEvents st.log ++ [e] := by
          unfold takenEvents; rw [List.filterMap_append]; simp [hev]
        rw [this, hq]
        exact ⟨⟨[], by simp⟩, by simp, fun h => absurd rfl (h closing stop), fun _ _ _ _ _ => by simp⟩

/-- C111: events are handled in the order they were sent: an event that waits behind `i` others is the `i+1`st the loop takes next,
whatever the goroutines do in the meantime, unless the loop is stopped. -/
theorem C111_turn (cap : Nat) (ops more : List PmOp) (i : Nat) (e : PmEvent) (hi : (pmRun cap ops).queue[i]? = some e)
    (hrun : (pmRun cap ops).stopped = false) (hgo : ∀ cl, PmOp.takes cl true ∉ more) (hk : i < takesOf more) :
    (takenEvents (pmRun cap (ops ++ more)).log)[(takenEvents (pmRun cap ops).log).length + i]? = some e := by
  have key : ∀ more, (∀ cl, PmOp.takes cl true ∉ more) → (pmRun cap (ops ++ more)).stopped = false ∧
      (∃ new, takenEvents (pmRun cap (ops ++ more)).log ++ (pmRun cap (ops ++ more)).queue =
        takenEvents (pmRun cap ops).log ++ (pmRun cap ops).queue ++ new) ∧
      (takenEvents (pmRun cap ops).log).length + min (takesOf more) (pmRun cap ops).queue.length ≤
        (takenEvents (pmRun cap (ops ++ more)).log).length := by
    intro more
    induction more using snocInd with
    | nil => intro _; rw [List.append_nil]; exact ⟨hrun, ⟨[], by simp⟩, by simp [takesOf]⟩
    | snoc more op ih =>
      intro hgo
      obtain ⟨h1, ⟨new, h2⟩, h3⟩ := ih (fun cl h => hgo cl (List.mem_append_left _ h))
      rw [← List.append_assoc, run_snoc]
      obtain ⟨⟨new', s1⟩, s2, s3, s4⟩ := taken_step cap (pmRun cap (ops ++ more)) op
      refine ⟨?_, ⟨new ++ new', by rw [s1, h2]; simp⟩, ?_⟩
      · cases op with
        | takes cl s =>
          have : s = false := by
            cases s with
            | false => rfl
            | true => exact absurd (List.mem_append_right _ (List.mem_singleton.2 rfl)) (hgo cl)
          subst this
          unfold pmStep
          dsimp only
          split
          · exact h1
          · split
            · exact h1
            · rfl
        | _ => rw [s3 (by intros; simp)]; exact h1
      · have hc : takesOf (more ++ [op]) = takesOf more + takesOf [op] := by unfold takesOf; rw [List.countP_append]
        rw [hc]
        cases op with
        | takes cl s =>
          have h1c : takesOf [PmOp.takes cl s] = 1 := rfl
          rw [h1c]
          by_cases hq : (pmRun cap (ops ++ more)).queue = []
          · have hl := congrArg List.length h2
            rw [hq] at hl
            simp only [List.length_append, List.length_nil] at hl
            omega
          · have := s4 cl s rfl h1 hq
            omega
        | _ =>
          have : ∀ o : PmOp, (∀ cl s, o ≠ .takes cl s) → takesOf [o] = 0 := by
            intro o ho
            cases o with
            | takes cl s => exact absurd rfl (ho cl s)
            | _ => rfl
          rw [this _ (by intros; simp)]
          omega
  obtain ⟨_, ⟨new, h2⟩, h3⟩ := key more hgo
  have hlt : i < (pmRun cap ops).queue.length := by
    apply Classical.byContradiction
    intro h
    rw [List.getElem?_eq_none (by omega)] at hi
    cases hi
  have h4 : (takenEvents (pmRun cap ops).log).length + i < (takenEvents (pmRun cap (ops ++ more)).log).length := by omega
  have h5 := congrArg (fun l : List PmEvent => l[(takenEvents (pmRun cap ops).log).length + i]?) h2
  rw [List.getElem?_append_left h4, List.append_assoc, List.getElem?_append_right (by omega), Nat.add_sub_cancel_left,
    List.getElem?_append_left hlt, hi] at h5
  exact h5

/-- C111: at most as many events wait as the channel has places. -/
theorem C111_bound (cap : Nat) (ops : List PmOp) : (pmRun cap ops).queue.length ≤ cap := by
  induction ops using snocInd with
  | nil => exact Nat.zero_le _
  | snoc ops op ih =>
    rw [run_snoc]
    cases op with
    | opens n => unfold pmStep; dsimp only; split <;> exact ih
    | arrives n m => exact ih
    | reads n v =>
      unfold pmStep; dsimp only; split
      · exact ih
      · unfold pmRead; split
        · exact ih
        · split
          · dsimp only; split <;> exact ih
          · exact ih
          · exact ih
    | sends n =>
      unfold pmStep; dsimp only; split
      · exact ih
      · unfold pmSend; split
        · exact ih
        · split
          · show (_ ++ [_]).length ≤ cap; rw [List.length_append, List.length_singleton]; omega
          · show (_ ++ [_]).length ≤ cap; rw [List.length_append, List.length_singleton]; omega
          · show (_ ++ [_]).length ≤ cap; rw [List.length_append, List.length_singleton]; omega
          · exact ih
    | eof n => exact ih
    | breaks n => exact ih
    | closes n => exact ih
    | injects w =>
      unfold pmStep; dsimp only; split
      · exact ih
      · show (_ ++ [_]).length ≤ cap; rw [List.length_append, List.length_singleton]; omega
    | takes cl s =>
      unfold pmStep; dsimp only; split
      · exact ih
      · split
        · exact ih
        · rename_i hq
          rw [hq, List.length_cons] at ih
          exact Nat.le_of_succ_le ih

/-- C111: once the loop has been stopped it takes nothing more. -/
theorem C111_stopped (cap : Nat) (ops more : List PmOp) (h : (pmRun cap ops).stopped = true) :
    takenEvents (pmRun cap (ops ++ more)).log = takenEvents (pmRun cap ops).log ∧ (pmRun cap (ops ++ more)).stopped = true := by
  induction more using snocInd with
  | nil => rw [List.append_nil]; exact ⟨rfl, h⟩
  | snoc more op ih =>
    rw [← List.append_assoc, run_snoc]
    obtain ⟨h1, h2⟩ := ih
    cases op with
    | takes cl s => unfold pmStep; dsimp only; rw [h2]; exact ⟨h1, h2⟩
    | reads n v =>
      unfold pmStep; dsimp only; split
      · exact ⟨h1, h2⟩
      · unfold pmRead; split
        · exact ⟨h1, h2⟩
        · split
          · rw [← h1]
            dsimp only; split
            all_goals exact ⟨by simp [pmSet, takenEvents, takenEvent], h2⟩
          · exact ⟨h1, h2⟩
          · exact ⟨h1, h2⟩
    | opens n => unfold pmStep; dsimp only; split <;> exact ⟨h1, h2⟩
    | sends n =>
      unfold pmStep; dsimp only; split
      · exact ⟨h1, h2⟩
      · unfold pmSend; split
        · exact ⟨h1, h2⟩
        · split <;> exact ⟨h1, h2⟩
    | injects w => unfold pmStep; dsimp only; split <;> exact ⟨h1, h2⟩
    | _ => exact ⟨h1, h2⟩

/-- A client that registers, says something and leaves. -/
private def pumpDemo : List PmOp :=
  [.opens 1, .arrives 1 ⟨b!"NICK", [b!"ann"]⟩, .reads 1 .registered, .sends 1, .takes [] false, .arrives 1 ⟨b!"PRIVMSG", [b!"#c", b!"bye"]⟩, .reads 1 .goesOn, .sends 1, .eof 1, .sends 1]

/-- C111 fails in full: a message that was received, from a connection nothing had closed when it was read, is not handled when the
other side leaves right after it: the goroutine of the connection closes it before the loop gets to the message. -/
theorem C111_lost_violated : ∃ (ops : List PmOp) (bye : Msg),
    -- the loop closes no connection, nothing breaks, and the connection is closed only once everything has been read and sent
    (∀ cl s, PmOp.takes cl s ∈ ops → cl = []) ∧ (∀ n, PmOp.breaks n ∉ ops) ∧
    (∀ i n, ops[i]? = some (.closes n) → ∃ c, pmGet (pmRun 64 (ops.take i)) n = some c ∧ c.unread = [] ∧ c.reader = .gone) ∧
    (pmRun 64 ops).queue = [] ∧
    sentOn 1 ops = some (handledOf 1 (pmRun 64 ops).log ++ [bye]) ∧ ignoredOf 1 (pmRun 64 ops).log = [bye] := by
  refine ⟨pumpDemo ++ [.closes 1, .takes [] false, .takes [] false],
    ⟨b!"PRIVMSG", [b!"#c", b!"bye"]⟩, ?_, ?_, ?_, ?_, ?_, ?_⟩
  · intro cl s h
    simp [pumpDemo] at h
    exact h.1
  · intro n h
    simp [pumpDemo] at h
  · intro i n h
    rcases i with _ | _ | _ | _ | _ | _ | _ | _ | _ | _ | _ | _ | _ | i
    case succ.succ.succ.succ.succ.succ.succ.succ.succ.succ.zero =>
      have : n = 1 := by simpa [pumpDemo, eq_comm] using h
      subst this
      decide +kernel
    all_goals simp [pumpDemo] at h
  · decide +kernel
  · decide +kernel
  · decide +kernel

/-- C111_complete and C111_turn apply: the same client, whose connection is not yet closed. -/
example : handledOf 1 (pmRun 64 (pumpDemo ++ [.takes [] false, .takes [] false])).log =
      [⟨b!"NICK", [b!"ann"]⟩, ⟨b!"PRIVMSG", [b!"#c", b!"bye"]⟩] ∧
    ((pmGet (pmRun 64 (pumpDemo ++ [.takes [] false, .takes [] false])) 1).map (·.closed)) = some false ∧
    (pmRun 64 pumpDemo).queue = [.message 1 ⟨b!"PRIVMSG", [b!"#c", b!"bye"]⟩, .disconnected 1] ∧
    (pmRun 64 pumpDemo).stopped = false := by decide +kernel

/-- C111_stopped applies. -/
example : (pmRun 64 (pumpDemo ++ [.takes [] true])).stopped = true ∧
    (pmRun 64 (pumpDemo ++ [.takes [] true])).queue = [.disconnected 1] := by decide +kernel

end Verif.Props
