import Verif.Model.Identd
import Verif.Proof.Url
import Verif.Proof.GoNum
import Verif.Proof.GoMap
import Verif.Proof.Util

/-! # C45: ident answers -/

namespace Verif.Props
open Verif.Model Verif.Spec Verif.Proof

/-! ## Specification -/

/-- The connections that are open after a history. -/
def liveConns (ops : List IdentOp) : List IdentConn :=
  ops.foldl (fun live op => match op with
    | .opened c => live ++ [c]
    | .closed c => live.filter (fun x => decide (x ≠ c))) []

/-- The connection is an answer to the question of `host` about these two ports. -/
def IdentMatch (host : Str) (localPort remotePort : Int) (c : IdentConn) : Prop :=
  c.remoteHost = host ∧ (c.remotePort : Int) = remotePort ∧ (c.localPort : Int) = localPort

/-- Addresses are those of TCP connections: host names without brackets, and port numbers. -/
def TcpConn (c : IdentConn) : Prop :=
  91 ∉ c.remoteHost ∧ 93 ∉ c.remoteHost ∧ 91 ∉ c.localHost ∧ 93 ∉ c.localHost ∧
  c.remotePort < 65536 ∧ c.localPort < 65536

/-- The connection an operation is about. -/
def opConn : IdentOp → IdentConn
  | .opened c => c
  | .closed c => c

/-- At every moment of the history, the open connections have different remote addresses or different local
ports. -/
def PortsDiffer (ops : List IdentOp) : Prop :=
  ∀ pre c rest, ops = pre ++ .opened c :: rest → ∀ x ∈ liveConns pre,
    ¬ (x.remoteHost = c.remoteHost ∧ x.remotePort = c.remotePort ∧ x.localPort = c.localPort)

/-- Only open connections are closed. -/
def ClosesOpen (ops : List IdentOp) : Prop :=
  ∀ pre c rest, ops = pre ++ .closed c :: rest → c ∈ liveConns pre

/-! ## Proofs -/

private theorem cutLast_free {x : Byte} {b : Str} (h : x ∉ b) : cutLast x b = none := by
  induction b with
  | nil => rfl
  | cons c b ih =>
    simp only [List.mem_cons, not_or] at h
    unfold cutLast
    rw [ih h.2]
    simp only
    rw [if_neg (fun e => h.1 e.symm)]

private theorem cutLast_append {x : Byte} (a b : Str) (h : x ∉ b) : cutLast x (a ++ x :: b) = some (a, b) := by
  induction a with
  | nil =>
    rw [List.nil_append]
    unfold cutLast
    rw [cutLast_free h]
    simp
  | cons c a ih =>
    rw [List.cons_append]
    unfold cutLast
    rw [ih]

private theorem itoa_free (n : Nat) (x : Byte) (h : ¬ (48 ≤ x ∧ x ≤ 57)) : x ∉ itoa n :=
  fun hm => h (itoa_digits n x hm)

private theorem split_join (host : Str) (port : Nat) (h1 : 91 ∉ host) (h2 : 93 ∉ host) :
    splitHostPort (joinHostPort host port) = some (host, itoa port) := by
  have h58 : 58 ∉ itoa port := itoa_free port 58 (by decide)
  have h91 : 91 ∉ itoa port := itoa_free port 91 (by decide)
  have h93 : 93 ∉ itoa port := itoa_free port 93 (by decide)
  unfold joinHostPort
  split
  · have e : b!"[" ++ host ++ b!"]:" ++ itoa port = (91 :: host ++ [93]) ++ 58 :: itoa port := by simp
    rw [e]
    unfold splitHostPort
    rw [cutLast_append _ _ h58]
    simp only [List.cons_append]
    have ht : List.takeWhile (fun c => decide (c ≠ 93)) (host ++ [93] ++ 58 :: itoa port) = host := by
      rw [List.append_assoc, List.takeWhile_append_of_pos (by
        intro a ha
        simp only [decide_eq_true_eq]
        intro e; subst e; exact h2 ha)]
      simp
    rw [ht, if_pos ⟨rfl, h1, h93, h91⟩]
  · rename_i hc
    have e : host ++ b!":" ++ itoa port = host ++ 58 :: itoa port := by simp
    rw [e]
    unfold splitHostPort
    rw [cutLast_append _ _ h58]
    dsimp only
    split
    · rename_i t he
      exfalso
      cases host with
      | nil => simp at he
      | cons c host =>
        simp only [List.cons_append, List.cons.injEq] at he
        exact h1 (by simp [he.1])
    · rw [if_neg]
      simp only [not_or]
      exact ⟨hc, h1, h2, h91, h93⟩

private theorem atoi_itoa (n : Nat) (h : n < 65536) : atoi (itoa n) = ((n : Int), true) := by
  have := parseInt64_itoaInt (n : Int) (by omega) (by omega)
  have e : itoaInt (n : Int) = itoa n := by
    unfold itoaInt
    rw [if_neg (by omega)]; rfl
  rw [e] at this
  unfold atoi
  rw [this]

private theorem identSplit_join (host : Str) (port : Nat) (h1 : 91 ∉ host) (h2 : 93 ∉ host) (hp : port < 65536) :
    identSplit (joinHostPort host port) = some (host, (port : Int)) := by
  unfold identSplit
  rw [split_join host port h1 h2]
  dsimp only
  rw [atoi_itoa port hp]
  simp

/-- The key of a connection. -/
private def connKey (c : IdentConn) : IdentKey := ⟨c.remoteHost, c.remotePort, c.localPort⟩

private theorem newIdentKey_conn (c : IdentConn) (h : TcpConn c) :
    newIdentKey (joinHostPort c.remoteHost c.remotePort) (joinHostPort c.localHost c.localPort) = some (connKey c) := by
  obtain ⟨h1, h2, h3, h4, h5, h6⟩ := h
  unfold newIdentKey
  rw [identSplit_join _ _ h1 h2 h5]
  dsimp only
  rw [identSplit_join _ _ h3 h4 h6]
  rfl

private theorem connKey_eq {c : IdentConn} {host : Str} {lp rp : Int} :
    connKey c = ⟨host, rp, lp⟩ ↔ IdentMatch host lp rp c := by
  unfold connKey IdentMatch
  simp only [IdentKey.mk.injEq]

private theorem run_snoc (ops : List IdentOp) (op : IdentOp) : identRun (ops ++ [op]) = identStep (identRun ops) op := by
  simp [identRun]

private theorem live_snoc (ops : List IdentOp) (op : IdentOp) :
    liveConns (ops ++ [op]) = match op with
      | .opened c => liveConns ops ++ [c]
      | .closed c => (liveConns ops).filter (fun x => decide (x ≠ c)) := by
  unfold liveConns
  rw [List.foldl_append]
  cases op <;> rfl

/-- The state of the server follows the open connections. -/
private theorem run_live (ops : List IdentOp) (htcp : ∀ op ∈ ops, TcpConn (opConn op)) (hd : PortsDiffer ops)
    (hc : ClosesOpen ops) :
    (∀ k id, GoMap.get (identRun ops) k = some id ↔ ∃ c ∈ liveConns ops, connKey c = k ∧ c.ident = id) ∧
    (∀ x ∈ liveConns ops, ∀ y ∈ liveConns ops, connKey x = connKey y → x = y) := by
  induction ops using snocInd with
  | nil => exact ⟨by intro k id; simp [identRun, liveConns, GoMap.get], by intro x hx; simp [liveConns] at hx⟩
  | snoc ops op ih =>
    obtain ⟨ih1, ih2⟩ := ih (fun x hx => htcp x (by simp [hx]))
      (fun pre c rest he => hd pre c (rest ++ [op]) (by rw [he]; simp))
      (fun pre c rest he => hc pre c (rest ++ [op]) (by rw [he]; simp))
    have ht := htcp op (by simp)
    rw [run_snoc, live_snoc]
    cases op with
    | opened c =>
      have hnew := hd ops c [] rfl
      have hk : ∀ x ∈ liveConns ops, connKey x ≠ connKey c := by
        intro x hx he
        unfold connKey at he
        simp only [IdentKey.mk.injEq] at he
        exact hnew x hx ⟨he.1, by omega, by omega⟩
      dsimp only
      refine ⟨?_, ?_⟩
      · intro k id
        unfold identStep identStore
        dsimp only
        rw [newIdentKey_conn c ht]
        dsimp only
        rw [mget_mset]
        split
        · rename_i he
          subst he
          constructor
          · intro h
            cases h
            exact ⟨c, by simp, rfl, rfl⟩
          · rintro ⟨x, hx, h1, h2⟩
            rcases List.mem_append.1 hx with hx | hx
            · exact absurd h1 (hk x hx)
            · simp only [List.mem_singleton] at hx
              subst hx
              rw [h2]
        · rename_i he
          rw [ih1]
          constructor
          · rintro ⟨x, hx, h1, h2⟩
            exact ⟨x, by simp [hx], h1, h2⟩
          · rintro ⟨x, hx, h1, h2⟩
            rcases List.mem_append.1 hx with hx | hx
            · exact ⟨x, hx, h1, h2⟩
            · simp only [List.mem_singleton] at hx
              subst hx
              exact absurd h1 he
      · intro x hx y hy he
        rcases List.mem_append.1 hx with hx' | hx' <;> rcases List.mem_append.1 hy with hy' | hy'
        · exact ih2 x hx' y hy' he
        · simp only [List.mem_singleton] at hy'
          rw [hy'] at he
          exact absurd he (hk x hx')
        · simp only [List.mem_singleton] at hx'
          rw [hx'] at he
          exact absurd he.symm (hk y hy')
        · simp only [List.mem_singleton] at hx' hy'
          rw [hx', hy']
    | closed c =>
      have hlive := hc ops c [] rfl
      dsimp only
      refine ⟨?_, ?_⟩
      · intro k id
        unfold identStep identDelete
        dsimp only
        rw [newIdentKey_conn c ht]
        dsimp only
        rw [mget_mdel]
        split
        · rename_i he
          subst he
          constructor
          · intro h; cases h
          · rintro ⟨x, hx, h1, h2⟩
            simp only [List.mem_filter, decide_eq_true_eq] at hx
            exact absurd (ih2 x hx.1 c hlive h1) hx.2
        · rename_i he
          rw [ih1]
          constructor
          · rintro ⟨x, hx, h1, h2⟩
            refine ⟨x, ?_, h1, h2⟩
            simp only [List.mem_filter, decide_eq_true_eq]
            refine ⟨hx, ?_⟩
            intro e; subst e; exact he h1
          · rintro ⟨x, hx, h1, h2⟩
            simp only [List.mem_filter] at hx
            exact ⟨x, hx.1, h1, h2⟩
      · intro x hx y hy he
        simp only [List.mem_filter] at hx hy
        exact ih2 x hx.1 y hy.1 he

/-- Over every history of connections that differ in the address of the server or in the local port: a
well-formed question from a host about two ports is answered with the ident string of the open connection to
this host with these ports, and with NO-USER if there is none. (The full property has no such restriction, see
`C45_same_port_violated`.) -/
theorem C45_answer_partial (ops : List IdentOp) (htcp : ∀ op ∈ ops, TcpConn (opConn op))
    (hid : ∀ op ∈ ops, (opConn op).ident ≠ []) (hd : PortsDiffer ops)
    (hc : ClosesOpen ops) (host line : Str) (lp rp : Int) (hq : parseIdentQuery line = some (lp, rp)) :
    (∀ c ∈ liveConns ops, IdentMatch host lp rp c →
      identAnswer (identRun ops) host line = (line ++ b!" : USERID : UNKNOWN : " ++ c.ident ++ [13, 10], true)) ∧
    ((∀ c ∈ liveConns ops, ¬ IdentMatch host lp rp c) →
      identAnswer (identRun ops) host line = (line ++ b!" : ERROR : NO-USER" ++ [13, 10], false)) := by
  have h1 := (run_live ops htcp hd hc).1
  have hlive : ∀ c ∈ liveConns ops, c.ident ≠ [] := by
    clear h1 hq hd hc htcp
    induction ops using snocInd with
    | nil => intro c hc; simp [liveConns] at hc
    | snoc ops op ih =>
      have ih := ih (fun x hx => hid x (by simp [hx]))
      intro c hc
      rw [live_snoc] at hc
      cases op with
      | opened d =>
        dsimp only at hc
        rcases List.mem_append.1 hc with hc | hc
        · exact ih c hc
        · simp only [List.mem_singleton] at hc
          subst hc
          exact hid (.opened c) (by simp)
      | closed d =>
        simp only [List.mem_filter] at hc
        exact ih c hc.1
  constructor
  · intro c hc' hm
    have hg := (h1 ⟨host, rp, lp⟩ c.ident).2 ⟨c, hc', connKey_eq.2 hm, rfl⟩
    unfold identAnswer
    rw [hq]
    dsimp only
    rw [hg]
    simp only [Option.getD_some]
    rw [if_neg (hlive c hc')]
  · intro hn
    have hg : GoMap.get (identRun ops) ⟨host, rp, lp⟩ = none := by
      cases hg : GoMap.get (identRun ops) ⟨host, rp, lp⟩ with
      | none => rfl
      | some id =>
        obtain ⟨c, hc', hk, _⟩ := (h1 _ _).1 hg
        exact absurd (connKey_eq.1 hk) (hn c hc')
    unfold identAnswer
    rw [hq]
    dsimp only
    rw [hg]
    simp

/-- Over every history, a host is only ever told ident strings of connections to itself, with the ports it
asked about. -/
theorem C45_only_owner (ops : List IdentOp) (htcp : ∀ op ∈ ops, TcpConn (opConn op)) (host line ident : Str)
    (h : (identAnswer (identRun ops) host line).1 = line ++ b!" : USERID : UNKNOWN : " ++ ident ++ [13, 10]) :
    ∃ c lp rp, .opened c ∈ ops ∧ parseIdentQuery line = some (lp, rp) ∧ IdentMatch host lp rp c ∧ c.ident = ident := by
  have hget : ∀ k id, GoMap.get (identRun ops) k = some id → ∃ c, .opened c ∈ ops ∧ connKey c = k ∧ c.ident = id := by
    clear h
    induction ops using snocInd with
    | nil => intro k id h; simp [identRun, GoMap.get] at h
    | snoc ops op ih =>
      have ih := ih (fun x hx => htcp x (by simp [hx]))
      have ht := htcp op (by simp)
      intro k id h
      rw [run_snoc] at h
      cases op with
      | opened c =>
        unfold identStep identStore at h
        dsimp only at h
        rw [newIdentKey_conn c ht] at h
        dsimp only at h
        rw [mget_mset] at h
        split at h
        · rename_i he
          cases h
          exact ⟨c, by simp, he, rfl⟩
        · obtain ⟨x, hx, h1, h2⟩ := ih k id h
          exact ⟨x, by simp [hx], h1, h2⟩
      | closed c =>
        unfold identStep identDelete at h
        dsimp only at h
        rw [newIdentKey_conn c ht] at h
        dsimp only at h
        rw [mget_mdel] at h
        split at h
        · cases h
        · obtain ⟨x, hx, h1, h2⟩ := ih k id h
          exact ⟨x, by simp [hx], h1, h2⟩
  unfold identAnswer at h
  cases hq : parseIdentQuery line with
  | none =>
    rw [hq] at h
    dsimp only at h
    rw [List.append_assoc, List.append_assoc, List.append_assoc] at h
    have := List.append_cancel_left h
    simp at this
  | some q =>
    obtain ⟨lp, rp⟩ := q
    rw [hq] at h
    dsimp only at h
    cases hg : GoMap.get (identRun ops) ⟨host, rp, lp⟩ with
    | none =>
      rw [hg] at h
      simp only [Option.getD_none, if_true] at h
      rw [List.append_assoc, List.append_assoc, List.append_assoc] at h
      have := List.append_cancel_left h
      simp at this
    | some id =>
      rw [hg] at h
      simp only [Option.getD_some] at h
      split at h
      · rw [List.append_assoc, List.append_assoc, List.append_assoc] at h
        have := List.append_cancel_left h
        simp at this
      · dsimp only at h
        rw [List.append_assoc, List.append_assoc, List.append_assoc, List.append_assoc] at h
        have := List.append_cancel_left (List.append_cancel_left h)
        have he : id = ident := List.append_cancel_right this
        obtain ⟨c, hc, h1, h2⟩ := hget _ _ hg
        exact ⟨c, lp, rp, hc, rfl, connKey_eq.1 h1, by rw [h2, he]⟩

private theorem space_not_digit {c : Byte} (h : 48 ≤ c ∧ c ≤ 57) : isSpaceByte c = false := by
  unfold isSpaceByte
  simp only [decide_eq_false_iff_not]
  omega

private theorem trimSpace_itoa (a b : Str) (ha : ∀ c ∈ a, isSpaceByte c = true) (hb : ∀ c ∈ b, isSpaceByte c = true)
    (n : Nat) : trimSpace (a ++ itoa n ++ b) = itoa n := by
  have drop : ∀ (x y : Str), (∀ c ∈ x, isSpaceByte c = true) → (x ++ y).dropWhile isSpaceByte = y.dropWhile isSpaceByte := by
    intro x y hx
    induction x with
    | nil => rfl
    | cons c x ih =>
      rw [List.cons_append, List.dropWhile_cons, if_pos (hx c (by simp))]
      exact ih (fun z hz => hx z (by simp [hz]))
  have nodrop : ∀ (x y : Str), x ≠ [] → (∀ c ∈ x, 48 ≤ c ∧ c ≤ 57) → (x ++ y).dropWhile isSpaceByte = x ++ y := by
    intro x y hne hx
    cases x with
    | nil => exact absurd rfl hne
    | cons c x =>
      rw [List.cons_append, List.dropWhile_cons, if_neg]
      rw [space_not_digit (hx c (by simp))]; decide
  unfold trimSpace
  rw [List.append_assoc, drop _ _ ha, nodrop _ _ (itoa_ne_nil n) (itoa_digits n), List.reverse_append,
    drop _ _ (by intro c hc; exact hb c (by simpa using hc))]
  have := nodrop (itoa n).reverse [] (by simpa using itoa_ne_nil n) (by intro c hc; exact itoa_digits n c (by simpa using hc))
  rw [List.append_nil] at this
  rw [this, List.reverse_reverse]

/-- Every question of the protocol is understood: two port numbers separated by a comma, with spaces around
them. -/
theorem C45_query (s1 s2 s3 s4 : Str) (hs : ∀ c ∈ s1 ++ s2 ++ s3 ++ s4, c = 32 ∨ c = 9) (lp rp : Nat)
    (hl : 0 < lp ∧ lp < 65536) (hr : 0 < rp ∧ rp < 65536) :
    parseIdentQuery (s1 ++ itoa lp ++ s2 ++ b!"," ++ s3 ++ itoa rp ++ s4) = some ((lp : Int), (rp : Int)) := by
  have sp : ∀ c, c = 32 ∨ c = 9 → isSpaceByte c = true := by
    intro c h; rcases h with rfl | rfl <;> decide
  have h44 : 44 ∉ s1 ++ itoa lp ++ s2 := by
    intro h
    rcases List.mem_append.1 h with h | h
    · rcases List.mem_append.1 h with h | h
      · have := hs 44 (by simp [h]); omega
      · have := itoa_digits lp 44 h; omega
    · have := hs 44 (by simp [h]); omega
  have e : s1 ++ itoa lp ++ s2 ++ b!"," ++ s3 ++ itoa rp ++ s4 = (s1 ++ itoa lp ++ s2) ++ 44 :: (s3 ++ itoa rp ++ s4) := by
    simp
  rw [e]
  unfold parseIdentQuery
  rw [cutStr_byte 44 _ _ h44]
  dsimp only
  rw [trimSpace_itoa s1 s2 (fun c hc => sp c (hs c (by simp [hc]))) (fun c hc => sp c (hs c (by simp [hc]))),
    trimSpace_itoa s3 s4 (fun c hc => sp c (hs c (by simp [hc]))) (fun c hc => sp c (hs c (by simp [hc]))),
    atoi_itoa lp hl.2, atoi_itoa rp hr.2]
  simp only [Bool.true_eq_false, if_false]
  rw [if_neg (by omega)]

example : parseIdentQuery b!" 6193 , 6667" = some (6193, 6667) ∧ parseIdentQuery b!"0, 23" = none ∧
    parseIdentQuery b!"6193" = none := by decide +kernel

/-- Nothing else is understood: two numbers greater than zero separated by a comma.  Everything else is answered with
INVALID-PORT. -/
theorem C45_refused (line : Str) :
    (∀ lp rp, parseIdentQuery line = some (lp, rp) ↔ 0 < lp ∧ 0 < rp ∧ ∃ a b, 44 ∉ a ∧ line = a ++ [44] ++ b ∧
      atoi (trimSpace a) = (lp, true) ∧ atoi (trimSpace b) = (rp, true)) ∧
    (parseIdentQuery line = none → ∀ entries host,
      identAnswer entries host line = (line ++ b!" : ERROR : INVALID-PORT" ++ [13, 10], false)) := by
  constructor
  · intro lp rp
    unfold parseIdentQuery
    cases hc : cutStr b!"," line with
    | none =>
      have h44 := cutStr_byte_eq_none hc
      constructor
      · intro h; cases h
      · rintro ⟨_, _, a, b, _, rfl, _⟩; simp at h44
    | some ab =>
      obtain ⟨a, b⟩ := ab
      obtain ⟨he, hne⟩ := cutStr_byte_some hc
      have huniq : ∀ a' b', 44 ∉ a' → line = a' ++ [44] ++ b' → a' = a ∧ b' = b := by
        intro a' b' h1 h2
        have := cutStr_byte 44 a' b' h1
        rw [show a' ++ 44 :: b' = line by rw [h2]; simp, show [44] = b!"," from rfl, hc] at this
        simp only [Option.some.injEq, Prod.mk.injEq] at this
        exact ⟨this.1.symm, this.2.symm⟩
      dsimp only
      constructor
      · intro h
        split at h
        · cases h
        · split at h
          · cases h
          · split at h
            · cases h
            · rename_i h1 h2 h3
              simp only [Option.some.injEq, Prod.mk.injEq] at h
              obtain ⟨rfl, rfl⟩ := h
              simp only [Bool.not_eq_false] at h1 h2
              refine ⟨by omega, by omega, a, b, hne, by rw [he]; simp, ?_, ?_⟩
              · exact Prod.ext rfl h1
              · exact Prod.ext rfl h2
      · rintro ⟨h1, h2, a', b', h3, h4, h5, h6⟩
        obtain ⟨rfl, rfl⟩ := huniq a' b' h3 h4
        rw [h5, h6]
        simp only [Bool.true_eq_false, if_false]
        rw [if_neg (by omega)]
  · intro h entries host
    unfold identAnswer
    rw [h]

example : parseIdentQuery b!"0, 23" = none ∧ parseIdentQuery b!"1, 23" = some (1, 23) := by decide +kernel

/-- The question has a user to report. -/
def HasUser (host : Str) (q : Str × IdentEntries) : Prop :=
  ∃ lp rp ident, parseIdentQuery q.1 = some (lp, rp) ∧ GoMap.get q.2 ⟨host, rp, lp⟩ = some ident ∧ ident ≠ []

/-- On one connection every question is answered, in order, up to the first one without a user to report. -/
theorem C45_session (host : Str) (qs : List (Str × IdentEntries)) (i : Nat) (q : Str × IdentEntries) (hi : qs[i]? = some q) :
    ((∀ p ∈ qs.take i, HasUser host p) → (identHandle host qs)[i]? = some (identAnswer q.2 host q.1).1) ∧
    ((∃ p ∈ qs.take i, ¬ HasUser host p) → (identHandle host qs)[i]? = none) := by
  have hgo : ∀ q : Str × IdentEntries, (identAnswer q.2 host q.1).2 = true ↔ HasUser host q := by
    intro q
    unfold identAnswer HasUser
    cases hq : parseIdentQuery q.1 with
    | none => simp
    | some lr =>
      obtain ⟨lp, rp⟩ := lr
      simp only [Option.some.injEq, Prod.mk.injEq]
      cases hg : GoMap.get q.2 ⟨host, rp, lp⟩ with
      | none =>
        simp only [Option.getD_none, if_true, Bool.false_eq_true, false_iff]
        rintro ⟨lp', rp', id, ⟨rfl, rfl⟩, h, _⟩
        rw [hg] at h; cases h
      | some id =>
        simp only [Option.getD_some]
        constructor
        · intro h
          split at h
          · simp at h
          · rename_i hne; exact ⟨lp, rp, id, ⟨rfl, rfl⟩, hg, hne⟩
        · rintro ⟨lp', rp', id', ⟨rfl, rfl⟩, h, hne⟩
          rw [hg] at h; cases h
          rw [if_neg hne]
  induction qs generalizing i with
  | nil => simp at hi
  | cons p qs ih =>
    unfold identHandle
    cases i with
    | zero =>
      simp only [List.getElem?_cons_zero, Option.some.injEq] at hi
      subst hi
      refine ⟨fun _ => ?_, fun ⟨x, hx, _⟩ => by simp at hx⟩
      split <;> rfl
    | succ i =>
      simp only [List.getElem?_cons_succ] at hi
      have := ih i hi
      simp only [List.take_succ_cons, List.mem_cons]
      split
      · rename_i hp
        rw [List.getElem?_cons_succ]
        refine ⟨fun h => this.1 (fun x hx => h x (.inr hx)), fun ⟨x, hx, hn⟩ => ?_⟩
        rcases hx with rfl | hx
        · exact absurd ((hgo x).1 hp) hn
        · exact this.2 ⟨x, hx, hn⟩
      · rename_i hp
        refine ⟨fun h => absurd ((hgo p).2 (h p (.inl rfl))) hp, fun _ => by simp⟩

/-- A case: two users on the same server, and one of them leaves. -/
example :
    let c1 : IdentConn := ⟨b!"10.0.0.1", 6667, b!"10.0.0.9", 6193, b!"abc"⟩
    let c2 : IdentConn := ⟨b!"10.0.0.1", 6667, b!"10.0.0.9", 6194, b!"def"⟩
    let ops := [.opened c1, .opened c2, .closed c1]
    (∀ op ∈ ops, TcpConn (opConn op) ∧ (opConn op).ident ≠ []) ∧ liveConns ops = [c2] ∧
    identHandle b!"10.0.0.1" [(b!"6194,6667", identRun ops), (b!"6193,6667", identRun ops), (b!"6194,6667", identRun ops)]
      = [b!"6194,6667 : USERID : UNKNOWN : def" ++ [13, 10], b!"6193,6667 : ERROR : NO-USER" ++ [13, 10]] ∧
    identHandle b!"10.0.0.2" [(b!"6194,6667", identRun ops)] = [b!"6194,6667 : ERROR : NO-USER" ++ [13, 10]] := by
  refine ⟨?_, by decide +kernel, by decide +kernel, by decide +kernel⟩
  intro op hop
  simp only [List.mem_cons, List.not_mem_nil, or_false] at hop
  rcases hop with rfl | rfl | rfl <;> exact ⟨by simp [opConn, TcpConn], by simp [opConn]⟩

/-- What C45 says without the restriction on local ports: connections only differ as TCP connections do. -/
def IdentAnswersOwner : Prop :=
  ∀ ops : List IdentOp, (∀ op ∈ ops, TcpConn (opConn op)) → (∀ op ∈ ops, (opConn op).ident ≠ []) → ClosesOpen ops →
    (∀ pre c rest, ops = pre ++ .opened c :: rest → ∀ x ∈ liveConns pre,
      ¬ (x.remoteHost = c.remoteHost ∧ x.remotePort = c.remotePort ∧ x.localHost = c.localHost ∧
        x.localPort = c.localPort)) →
    ∀ host line lp rp, parseIdentQuery line = some (lp, rp) → ∀ c ∈ liveConns ops, IdentMatch host lp rp c →
      identAnswer (identRun ops) host line = (line ++ b!" : USERID : UNKNOWN : " ++ c.ident ++ [13, 10], true)

private theorem snoc_pre {α : Type} {a b : α} {pre rest : List α} {x : α} (h : [a, b] = pre ++ x :: rest) :
    (pre = [] ∧ x = a) ∨ (pre = [a] ∧ x = b ∧ rest = []) := by
  cases pre with
  | nil => simp only [List.nil_append, List.cons.injEq] at h; exact Or.inl ⟨rfl, h.1.symm⟩
  | cons y pre =>
    simp only [List.cons_append, List.cons.injEq] at h
    obtain ⟨rfl, h⟩ := h
    cases pre with
    | nil => simp only [List.nil_append, List.cons.injEq] at h; exact Or.inr ⟨rfl, h.1.symm, h.2.symm⟩
    | cons z pre => simp at h

/-- It fails with several local addresses: the second connection takes the place of the first, which has the
same local port on another address. The server is then told the wrong user. -/
theorem C45_same_port_violated : ¬ IdentAnswersOwner := by
  intro h
  have := h [.opened ⟨b!"10.0.0.1", 6667, b!"10.0.1.2", 6193, b!"abc"⟩,
      .opened ⟨b!"10.0.0.1", 6667, b!"10.0.1.3", 6193, b!"def"⟩]
    (by
      intro op hop
      simp only [List.mem_cons, List.not_mem_nil, or_false] at hop
      rcases hop with rfl | rfl <;> simp [opConn, TcpConn])
    (by
      intro op hop
      simp only [List.mem_cons, List.not_mem_nil, or_false] at hop
      rcases hop with rfl | rfl <;> simp [opConn])
    (by
      intro pre c rest he
      rcases snoc_pre he with ⟨_, h⟩ | ⟨_, h, _⟩ <;> cases h)
    (by
      intro pre c rest he x hx
      rcases snoc_pre he with ⟨rfl, h⟩ | ⟨rfl, h, _⟩
      · simp [liveConns] at hx
      · cases h
        simp [liveConns] at hx
        subst hx
        simp)
    b!"10.0.0.1" b!"6193,6667" 6193 6667 (by decide +kernel) ⟨b!"10.0.0.1", 6667, b!"10.0.1.2", 6193, b!"abc"⟩
    (by decide +kernel) (by simp [IdentMatch])
  revert this
  decide +kernel

end Verif.Props
