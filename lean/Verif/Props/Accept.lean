import Verif.Model.Accept
import Verif.Proof.Util

/-! # C106: the bouncer goes on accepting connections -/

namespace Verif.Props
open Verif.Model Verif.Proof

/-! ## Specification -/

/-- Answers after which there will be others: connections, and errors that pass. -/
def passing : AcRes → Bool
  | .conn _ => true
  | .temporary => true
  | .closed => false
  | .failed => false

/-- The connections among the answers. -/
def connections (l : List AcRes) : List Nat := l.filterMap (fun r => match r with | .conn id => some id | _ => none)

/-- The connections that are served. -/
def served (l : List AcEvent) : List Nat := l.filterMap (fun e => match e with | .serve id => some id | _ => none)

/-- How many errors in a row end this list. -/
def errorsInARow (l : List AcRes) : Nat := (l.reverse.takeWhile (· = .temporary)).length

/-- The wait after the n-th error in a row: 5, 10, 20, … milliseconds, and a second from the ninth error on. -/
def waitAfter (n : Nat) : Nat := if n ≤ 8 then 5 * 2 ^ (n - 1) else 1000

/-! ## Proofs -/

private theorem acServe_nil (ce : Bool) (d : Nat) : acServe ce d [] = [] := by
  rw [acServe]
  rfl

private theorem acServe_conn (ce : Bool) (d id : Nat) (l : List AcRes) :
    acServe ce d (.conn id :: l) = .serve id :: acServe ce 0 l := by
  rw [acServe]
  rfl

private theorem acServe_closed (ce : Bool) (d : Nat) (l : List AcRes) :
    acServe ce d (.closed :: l) = [.returned ce] := by
  rw [acServe]
  rfl

private theorem acServe_failed (ce : Bool) (d : Nat) (l : List AcRes) :
    acServe ce d (.failed :: l) = [.returned true] := by
  rw [acServe]
  rfl

private theorem acServe_temporary (ce : Bool) (d : Nat) (l : List AcRes) :
    acServe ce d (.temporary :: l) = .sleep (nextDelay d) :: acServe ce (nextDelay d) l := by
  rw [acServe, acServe]
  have e : retryAccept d (.temporary :: l) =
    (.sleep (nextDelay d) :: (retryAccept (nextDelay d) l).1, (retryAccept (nextDelay d) l).2) := rfl
  rw [e]
  generalize retryAccept (nextDelay d) l = r
  obtain ⟨a, b, c⟩ := r
  cases c with
  | none => rfl
  | some x =>
    obtain ⟨r, rest⟩ := x
    cases r <;> rfl

/-- The delay after n errors in a row. -/
private def delayOf (n : Nat) : Nat := if n = 0 then 0 else waitAfter n

private theorem next_delayOf (n : Nat) : nextDelay (delayOf n) = waitAfter (n + 1) ∧ delayOf (n + 1) = waitAfter (n + 1) := by
  refine ⟨?_, by unfold delayOf; rw [if_neg (by omega)]⟩
  by_cases h : n ≤ 8
  · have : ∀ m : Fin 9, nextDelay (delayOf m.1) = waitAfter (m.1 + 1) := by decide
    exact this ⟨n, by omega⟩
  · have h1 : delayOf n = 1000 := by unfold delayOf waitAfter; rw [if_neg (by omega), if_neg h]
    have h2 : waitAfter (n + 1) = 1000 := by unfold waitAfter; rw [if_neg (by omega)]
    rw [h1, h2]
    rfl

private theorem row_snoc (l : List AcRes) (r : AcRes) :
    errorsInARow (l ++ [r]) = if r = .temporary then errorsInARow l + 1 else 0 := by
  unfold errorsInARow
  rw [List.reverse_append]
  by_cases h : r = .temporary <;> simp [h]

/-- The loop after `pre`, of which none was the last answer. -/
private theorem acServe_split (ce : Bool) (pre post : List AcRes) (h : ∀ r ∈ pre, passing r = true) :
    ∃ evs, evs.length = pre.length ∧ acServe ce 0 (pre ++ post) = evs ++ acServe ce (delayOf (errorsInARow pre)) post ∧
      acServe ce 0 pre = evs := by
  induction pre using snocInd generalizing post with
  | nil => exact ⟨[], rfl, rfl, acServe_nil ce 0⟩
  | snoc pre r ih =>
    have h' : ∀ r ∈ pre, passing r = true := fun x hx => h x (by simp [hx])
    obtain ⟨evs, hl, he, hz⟩ := ih (r :: post) h'
    obtain ⟨evs', hl', he', hz'⟩ := ih [r] h'
    have hee : evs' = evs := by rw [← hz', ← hz]
    subst hee
    rw [List.append_assoc, List.singleton_append, he, he', row_snoc]
    cases r with
    | conn id =>
      refine ⟨evs' ++ [.serve id], by simp [hl], ?_, ?_⟩
      · rw [acServe_conn, if_neg (by simp)]
        simp [delayOf]
      · rw [acServe_conn, acServe_nil]
    | temporary =>
      obtain ⟨n1, n2⟩ := next_delayOf (errorsInARow pre)
      refine ⟨evs' ++ [.sleep (waitAfter (errorsInARow pre + 1))], by simp [hl], ?_, ?_⟩
      · rw [acServe_temporary, n1, if_pos rfl, n2]
        simp
      · rw [acServe_temporary, n1, acServe_nil]
    | closed => exact absurd (h .closed (by simp)) (by decide)
    | failed => exact absurd (h .failed (by simp)) (by decide)

private theorem handled_any (ce : Bool) (d : Nat) (l : List AcRes) :
    served (acServe ce d l) = connections (l.takeWhile passing) := by
  induction l generalizing d with
  | nil => rw [acServe_nil]; rfl
  | cons r l ih =>
    cases r with
    | conn id =>
      rw [acServe_conn]
      show id :: served (acServe ce 0 l) = _
      rw [ih]
      rfl
    | temporary =>
      rw [acServe_temporary]
      show served (acServe ce (nextDelay d) l) = _
      rw [ih]
      rfl
    | closed => rw [acServe_closed]; rfl
    | failed => rw [acServe_failed]; rfl

/-! ## Theorems -/

/-- Every connection is served, once and in the order of arrival, whatever errors there are between, until the listener is
closed or fails for good. -/
theorem C106_served (ce : Bool) (l : List AcRes) : served (acServe ce 0 l) = connections (l.takeWhile passing) :=
  handled_any ce 0 l

/-- After an error that passes the loop sleeps, for a time that is given by the number of errors since the last
connection, and goes on. -/
theorem C106_waits (ce : Bool) (pre post : List AcRes) (h : ∀ r ∈ pre, passing r = true) :
    (acServe ce 0 (pre ++ .temporary :: post))[pre.length]? = some (.sleep (waitAfter (errorsInARow pre + 1))) := by
  obtain ⟨evs, hl, he, -⟩ := acServe_split ce pre (.temporary :: post) h
  rw [he, acServe_temporary, (next_delayOf _).1, ← hl]
  simp

/-- It never sleeps for more than a second, so no connection waits longer than this for the loop; nor for less than
5 milliseconds. -/
theorem C106_wait_bounds (ce : Bool) (l : List AcRes) (ms : Nat) (h : AcEvent.sleep ms ∈ acServe ce 0 l) :
    5 ≤ ms ∧ ms ≤ 1000 := by
  have key : ∀ d l, (d = 0 ∨ 5 ≤ d) → AcEvent.sleep ms ∈ acServe ce d l → ms ≤ 1000 ∧ 5 ≤ ms := by
    intro d l hd
    induction l generalizing d with
    | nil => rw [acServe_nil]; intro h; cases h
    | cons r l ih =>
      cases r with
      | conn id =>
        rw [acServe_conn]
        intro h
        rcases List.mem_cons.1 h with h | h
        · cases h
        · exact ih 0 (Or.inl rfl) h
      | temporary =>
        rw [acServe_temporary]
        have hb : 5 ≤ nextDelay d ∧ nextDelay d ≤ 1000 := by
          unfold nextDelay
          dsimp only
          split <;> split <;> omega
        intro h
        rcases List.mem_cons.1 h with h | h
        · cases h
          exact ⟨hb.2, hb.1⟩
        · exact ih _ (Or.inr hb.1) h
      | closed => rw [acServe_closed]; intro h; simp at h
      | failed => rw [acServe_failed]; intro h; simp at h
  exact ⟨(key 0 l (Or.inl rfl) h).2, (key 0 l (Or.inl rfl) h).1⟩

/-- The loop of the server ends when its listener is closed, without an error, and when it fails for good, with an error;
never else. -/
theorem C106_ends (l : List AcRes) :
    ((∃ e, AcEvent.returned e ∈ acServe false 0 l) ↔ ∃ r ∈ l, passing r = false) ∧
    (AcEvent.returned false ∈ acServe false 0 l ↔ (l.dropWhile passing).head? = some .closed) ∧
    (AcEvent.returned true ∈ acServe false 0 l ↔ (l.dropWhile passing).head? = some .failed) := by
  have key : ∀ d l, (AcEvent.returned false ∈ acServe false d l ↔ (l.dropWhile passing).head? = some .closed) ∧
      (AcEvent.returned true ∈ acServe false d l ↔ (l.dropWhile passing).head? = some .failed) := by
    intro d l
    induction l generalizing d with
    | nil => rw [acServe_nil]; simp
    | cons r l ih =>
      cases r with
      | conn id => rw [acServe_conn]; simp only [List.mem_cons, reduceCtorEq, false_or]; exact ih 0
      | temporary => rw [acServe_temporary]; simp only [List.mem_cons, reduceCtorEq, false_or]; exact ih _
      | closed => rw [acServe_closed]; simp [passing]
      | failed => rw [acServe_failed]; simp [passing]
  refine ⟨?_, key 0 l⟩
  have hd : (∃ r ∈ l, passing r = false) ↔ ((l.dropWhile passing).head? = some .closed ∨ (l.dropWhile passing).head? = some .failed) := by
    clear key
    induction l with
    | nil => simp
    | cons r l ih =>
      have hp : (∃ x ∈ r :: l, passing x = false) ↔ (passing r = false ∨ ∃ x ∈ l, passing x = false) := by simp
      rw [hp]
      cases r with
      | conn id => exact (or_iff_right (by simp [passing])).trans ih
      | temporary => exact (or_iff_right (by simp [passing])).trans ih
      | closed => exact iff_of_true (Or.inl rfl) (Or.inl rfl)
      | failed => exact iff_of_true (Or.inl rfl) (Or.inr rfl)
  rw [hd, ← (key 0 l).1, ← (key 0 l).2]
  constructor
  · rintro ⟨e, he⟩
    cases e
    · exact Or.inl he
    · exact Or.inr he
  · rintro (h | h)
    · exact ⟨_, h⟩
    · exact ⟨_, h⟩

example : (∀ r ∈ [AcRes.conn 1, .temporary, .temporary], passing r = true) ∧
    acServe false 0 [.conn 1, .temporary, .temporary, .temporary, .conn 2, .temporary, .closed, .conn 3] =
      [.serve 1, .sleep 5, .sleep 10, .sleep 20, .serve 2, .sleep 5, .returned false] := by
  refine ⟨by decide, ?_⟩
  simp only [acServe_conn, acServe_temporary, acServe_closed]
  decide

end Verif.Props
