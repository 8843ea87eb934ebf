import Verif.Model.SaslBridge
import Verif.Proof.Base64
import Verif.Proof.GenMsg
import Verif.Proof.GoStr
import Verif.Proof.Util

/-! # C116: logging in to a network through the bouncer -/

namespace Verif.Props
open Verif.Model Verif.Proof

/-! ## Specification -/

/-- What a client is heard saying with AUTHENTICATE: the flag says whether the network can be logged in to. -/
def wordStep (c : Nat) (s : Bool × List (List Str)) : SbOp → Bool × List (List Str)
  | .granted _ => (true, s.2)
  | .withdrawn => (false, s.2)
  | .lost => (false, s.2)
  | .made b => (b, s.2)
  | .connect d => if d = c then (s.1, []) else s
  | .auth d ps => if d = c ∧ s.1 = true then (s.1, s.2 ++ [ps]) else s
  | _ => s

/-- The network is connected and has SASL. -/
def netReady (c : Nat) (ops : List SbOp) : Bool := (ops.foldl (wordStep c) (false, [])).1

/-- The parameters of the AUTHENTICATE commands of the client since it connected, those it sent while nobody could
log in left out. -/
def heardOf (c : Nat) (ops : List SbOp) : List (List Str) := (ops.foldl (wordStep c) (false, [])).2

/-- A part of a response: `+` stands for nothing. -/
def partText (p : Str) : Str := if p = b!"+" then [] else p

/-- The last words of the client after `ops` are: the mechanism, then parts of 400 bytes, which joined are `text`. -/
def Talking (c : Nat) (ops : List SbOp) (mech text : Str) : Prop :=
  ∃ hist m ms parts, heardOf c ops = hist ++ ((m :: ms) :: parts) ∧ asciiUpper m = mech ∧
    (∀ q ∈ parts, (partText (q.headD [])).length = 400) ∧ text = parts.flatMap (fun q => partText (q.headD []))

/-- With the part `l` said after `ops` the client has given these credentials: the response is, encoded in
base64, the three separated by NUL. -/
def GavePlain (c : Nat) (ops : List SbOp) (l identity user password : Str) : Prop :=
  ∃ text, Talking c ops b!"PLAIN" text ∧
    Base64.decode .std (text ++ partText l) = some (identity ++ [0] ++ user ++ [0] ++ password) ∧
    0 ∉ identity ∧ 0 ∉ user ∧ 0 ∉ password

/-- With this message the server ends an exchange. -/
def EndsExchange (m : Msg) : Prop :=
  (m.command ∈ [b!"902", b!"903", b!"904", b!"905", b!"906"] ∧ 2 ≤ m.params.length) ∨
  (m.command ∈ [b!"400", b!"421", b!"461", b!"263"] ∧ m.params[1]? = some b!"AUTHENTICATE" ∧ 3 ≤ m.params.length)

instance (m : Msg) : Decidable (EndsExchange m) := by unfold EndsExchange; infer_instance

/-- With this event the exchange with the server ends, or the bouncer starts one of its own. -/
def Breaks : SbOp → Prop
  | .server m _ => EndsExchange m
  | .lost => True
  | .made _ => True
  | .granted (some _) => True
  | _ => False

/-- With this event the exchange with the server ends. -/
def EndsIt : SbOp → Prop
  | .server m _ => EndsExchange m
  | .lost => True
  | .made _ => True
  | _ => False

/-- Is an exchange with the server open?  One is opened by an AUTHENTICATE sent when a client or the acknowledgement
of `sasl` asks for it. -/
def openStep (oauth : Str → Option (Str × Str)) (s : SbState × Bool) (op : SbOp) : SbState × Bool :=
  ((sbStep oauth s.1 op).1,
   match op with
   | .server m _ => if EndsExchange m then false else s.2
   | .lost => false
   | .made _ => false
   | op => if (sbStep oauth s.1 op).2.server ≠ [] then true else s.2)

/-- Is an exchange with the server open after these events? -/
def serverOpen (oauth : Str → Option (Str × Str)) (ops : List SbOp) : Bool :=
  (ops.foldl (openStep oauth) (sbInit, false)).2

/-! ## Proof -/

/-- `dc.sasl` of a client. -/
def exchangeOf (st : SbState) (c : Nat) : Option SbExchange := (st.clients c).bind (·.sasl)

private theorem run_snoc (oauth) (ops : List SbOp) (op : SbOp) :
    sbRun oauth (ops ++ [op]) = (sbStep oauth (sbRun oauth ops) op).1 := by simp [sbRun]

private theorem open_run (oauth) (ops : List SbOp) : (ops.foldl (openStep oauth) (sbInit, false)).1 = sbRun oauth ops := by
  induction ops using snocInd with
  | nil => rfl
  | snoc ops op ih => rw [List.foldl_append, run_snoc]; simp [openStep, ih]

private theorem open_snoc (oauth) (ops : List SbOp) (op : SbOp) :
    serverOpen oauth (ops ++ [op]) = (openStep oauth (sbRun oauth ops, serverOpen oauth ops) op).2 := by
  unfold serverOpen
  rw [List.foldl_append]
  have := open_run oauth ops
  simp only [List.foldl_cons, List.foldl_nil]
  rw [← this]

theorem exchange_setSasl (st : SbState) (c d : Nat) (v : Option SbExchange) :
    exchangeOf (st.setSasl c v) d = if d = c then (if (st.clients c).isSome then v else none) else exchangeOf st d := by
  unfold exchangeOf SbState.setSasl
  by_cases h : d = c
  · subst h; simp; cases st.clients d <;> simp
  · simp [h]

theorem exchange_leave (st : SbState) (c d : Nat) :
    exchangeOf (st.leave c) d = if d = c then none else exchangeOf st d := by
  unfold exchangeOf SbState.leave
  by_cases h : d = c <;> simp [h]

theorem foldl_setSasl (l : List Nat) (st : SbState) : ∃ f, l.foldl (fun s c => SbState.setSasl s c none) st = { st with clients := f } ∧
    ∀ c ex, (f c).bind (·.sasl) = some ex → exchangeOf st c = some ex := by
  induction l generalizing st with
  | nil => exact ⟨st.clients, rfl, fun c ex h => h⟩
  | cons a l ih =>
    obtain ⟨f, h1, h2⟩ := ih (st.setSasl a none)
    refine ⟨f, by rw [List.foldl_cons, h1]; rfl, fun c ex h => ?_⟩
    have := h2 c ex h
    rw [exchange_setSasl] at this
    split at this
    · split at this <;> cases this
    · exact this

private theorem talk_snoc (c : Nat) (ops : List SbOp) (op : SbOp) :
    (netReady c (ops ++ [op]), heardOf c (ops ++ [op])) = wordStep c (netReady c ops, heardOf c ops) op := by
  simp [netReady, heardOf]

/-- The mechanisms of the bouncer. -/
def SbMech (m : Str) : Prop := m = b!"PLAIN" ∨ m = b!"OAUTHBEARER" ∨ m = b!"ANONYMOUS"

/-- The exchange of a client is what it was heard saying. -/
def ExOK (ops : List SbOp) (st : SbState) : Prop :=
  ∀ c ex, exchangeOf st c = some ex → ex.got = none → Talking c ops ex.mech ex.pending ∧ SbMech ex.mech

/-- Who has started the exchange with the server. -/
def Started (ops : List SbOp) (cl : SaslClient) : Prop :=
  (∃ pre post, ops = pre ++ .granted (some cl) :: post ∧ ∀ x ∈ post, ¬ Breaks x) ∨
  ∃ pre c l ls post identity user password, ops = pre ++ .auth c (l :: ls) :: post ∧ (∀ x ∈ post, ¬ Breaks x) ∧
    GavePlain c pre l identity user password ∧ (identity = [] ∨ identity = user) ∧ cl = .plain user password

/-- The client has asked, and the server has not answered. -/
def Asked (ops : List SbOp) (c : Nat) : Prop :=
  ∃ pre l ls post identity user password, ops = pre ++ .auth c (l :: ls) :: post ∧ (∀ x ∈ post, ¬ EndsIt x) ∧
    GavePlain c pre l identity user password ∧ (identity = [] ∨ identity = user)

structure SbInv (oauth : Str → Option (Str × Str)) (ops : List SbOp) (st : SbState) : Prop where
  ready : ∀ c, st.ready = netReady c ops
  one : st.queue.length ≤ 1
  idle : st.client = none → st.queue = []
  ex : ExOK ops st
  client : ∀ cl, st.client = some cl → Started ops cl
  queue : ∀ c ∈ st.queue, Asked ops c
  isOpen : st.client.isSome = serverOpen oauth ops

theorem started_snoc {ops : List SbOp} {cl : SaslClient} (h : Started ops cl) (op : SbOp) (hb : ¬ Breaks op) :
    Started (ops ++ [op]) cl := by
  rcases h with ⟨pre, post, h1, h2⟩ | ⟨pre, c, l, ls, post, i, u, p, h1, h2, h3⟩
  · refine .inl ⟨pre, post ++ [op], by rw [h1]; simp, ?_⟩
    intro x hx; rcases List.mem_append.1 hx with hx | hx
    · exact h2 x hx
    · simp at hx; subst hx; exact hb
  · refine .inr ⟨pre, c, l, ls, post ++ [op], i, u, p, by rw [h1]; simp, ?_, h3⟩
    intro x hx; rcases List.mem_append.1 hx with hx | hx
    · exact h2 x hx
    · simp at hx; subst hx; exact hb

theorem asked_snoc {ops : List SbOp} {c : Nat} (h : Asked ops c) (op : SbOp) (hb : ¬ EndsIt op) :
    Asked (ops ++ [op]) c := by
  obtain ⟨pre, l, ls, post, i, u, p, h1, h2, h3⟩ := h
  refine ⟨pre, l, ls, post ++ [op], i, u, p, by rw [h1]; simp, ?_, h3⟩
  intro x hx; rcases List.mem_append.1 hx with hx | hx
  · exact h2 x hx
  · simp at hx; subst hx; exact hb

/-- Events in which the client is not heard and does not connect leave what it was heard saying. -/
theorem talking_snoc {c : Nat} {ops : List SbOp} {op : SbOp} {mech text : Str} (h : Talking c ops mech text)
    (hw : heardOf c (ops ++ [op]) = heardOf c ops) : Talking c (ops ++ [op]) mech text := by
  unfold Talking at *; rw [hw]; exact h

theorem ex_snoc {c : Nat} {ops : List SbOp} {op : SbOp} {mech text : Str} (h : Talking c ops mech text ∧ SbMech mech)
    (hw : heardOf c (ops ++ [op]) = heardOf c ops) : Talking c (ops ++ [op]) mech text ∧ SbMech mech :=
  ⟨talking_snoc h.1 hw, h.2⟩

theorem heard_other {c : Nat} {ops : List SbOp} {op : SbOp} (h1 : ∀ ps, op ≠ .auth c ps) (h2 : op ≠ .connect c) :
    heardOf c (ops ++ [op]) = heardOf c ops := by
  have := congrArg Prod.snd (talk_snoc c ops op)
  simp only at this
  rw [this]
  cases op with
  | connect d => simp only [wordStep]; split
                 · rename_i h; subst h; exact absurd rfl h2
                 · rfl
  | auth d ps => simp only [wordStep]; split
                 · rename_i h; exact absurd (by rw [h.1]) (h1 ps)
                 · rfl
  | _ => rfl

theorem ready_snoc {c : Nat} {ops : List SbOp} {op : SbOp} (h : ∀ s, (wordStep c s op).1 = s.1) :
    netReady c (ops ++ [op]) = netReady c ops := by
  have := congrArg Prod.fst (talk_snoc c ops op)
  simp only at this
  rw [this, h]

theorem saslReceive_eq (pending p : Str) : saslReceive pending p =
    if pending.length + (partText p).length > 10 * 1024 then (pending, .tooLong)
    else if (partText p).length = 400 then (pending ++ partText p, .wait)
    else match Base64.decode .std (pending ++ partText p) with
      | none => (pending ++ partText p, .badBase64)
      | some r => ([], .response r) := rfl

theorem saslReceive_wait {pending p pending' : Str} (h : saslReceive pending p = (pending', .wait)) :
    (partText p).length = 400 ∧ pending' = pending ++ partText p := by
  rw [saslReceive_eq] at h
  by_cases h1 : pending.length + (partText p).length > 10 * 1024
  · rw [if_pos h1] at h; cases h
  · rw [if_neg h1] at h
    by_cases h2 : (partText p).length = 400
    · rw [if_pos h2] at h; simp only [Prod.mk.injEq, and_true] at h; exact ⟨h2, h.symm⟩
    · rw [if_neg h2] at h
      cases hd : Base64.decode .std (pending ++ partText p) <;> rw [hd] at h <;> cases h

theorem saslReceive_resp {pending p pending' : Str} {r : List Byte} (h : saslReceive pending p = (pending', .response r)) :
    Base64.decode .std (pending ++ partText p) = some r := by
  rw [saslReceive_eq] at h
  by_cases h1 : pending.length + (partText p).length > 10 * 1024
  · rw [if_pos h1] at h; cases h
  · rw [if_neg h1] at h
    by_cases h2 : (partText p).length = 400
    · rw [if_pos h2] at h; cases h
    · rw [if_neg h2] at h
      cases hd : Base64.decode .std (pending ++ partText p) with
      | none => rw [hd] at h; cases h
      | some r' => rw [hd] at h; simp only [Prod.mk.injEq, SaslOut.response.injEq] at h; rw [h.2]

theorem plainParse_some {r : Str} {i u p : Str} (h : plainParse r = some (.plain i u p)) :
    r = i ++ [0] ++ u ++ [0] ++ p ∧ 0 ∉ i ∧ 0 ∉ u ∧ 0 ∉ p := by
  unfold plainParse at h
  split at h
  · rename_i i' u' p' hs
    simp only [Option.some.injEq, Creds.plain.injEq] at h
    obtain ⟨rfl, rfl, rfl⟩ := h
    have hj := joinStr_splitByte 0 r
    have hf := splitByte_mem_free 0 r
    rw [hs] at hj hf
    refine ⟨?_, hf _ (by simp), hf _ (by simp), hf _ (by simp)⟩
    rw [← hj]; simp [joinStr]
  · cases h

theorem plainParse_plain {r : Str} {cr : Creds} (h : plainParse r = some cr) : ∃ i u p, cr = .plain i u p := by
  unfold plainParse at h
  split at h
  · simp only [Option.some.injEq] at h; exact ⟨_, _, _, h.symm⟩
  · cases h

/-- What AUTHENTICATE by a client does, unless credentials are passed on. -/
structure AuthQuiet (st : SbState) (c : Nat) (params : List Str) (r : SbState × SbOut) : Prop where
  ready : r.1.ready = st.ready
  client : r.1.client = st.client
  queue : ∀ d ∈ r.1.queue, d ∈ st.queue
  one : st.queue.length ≤ 1 → r.1.queue.length ≤ 1
  server : r.2.server = []
  ex : ∀ d ex, exchangeOf r.1 d = some ex → ex.got = none →
    (exchangeOf st d = some ex ∧ (d ≠ c ∨ st.ready = false)) ∨
    (d = c ∧ st.ready = true ∧ ∃ p ps, params = p :: ps ∧
      ((ex = ⟨asciiUpper p, [], none⟩ ∧ SbMech (asciiUpper p)) ∨
       ∃ ex0, exchangeOf st c = some ex0 ∧ ex0.got = none ∧ (partText p).length = 400 ∧
        ex = { ex0 with pending := ex0.pending ++ partText p }))

/-- What AUTHENTICATE by a client does when credentials are passed on. -/
structure AuthPass (st : SbState) (c : Nat) (params : List Str) (r : SbState × SbOut) : Prop where
  free : st.client = none
  open_ : st.ready = true
  out : st.queue = [] → r.2 = ⟨[⟨b!"AUTHENTICATE", [b!"PLAIN"]⟩], []⟩
  gave : ∃ l ls ex0 i u p, params = l :: ls ∧ exchangeOf st c = some ex0 ∧ ex0.got = none ∧ ex0.mech = b!"PLAIN" ∧
    Base64.decode .std (ex0.pending ++ partText l) = some (i ++ [0] ++ u ++ [0] ++ p) ∧ 0 ∉ i ∧ 0 ∉ u ∧ 0 ∉ p ∧
    (i = [] ∨ i = u) ∧ r.1.client = some (.plain u p)
  ready : r.1.ready = st.ready
  queue : r.1.queue = st.queue ++ [c]
  ex : ∀ d ex, exchangeOf r.1 d = some ex → ex.got = none → d ≠ c ∧ exchangeOf st d = some ex

theorem quiet_set {st : SbState} {c : Nat} {params : List Str} {v : Option SbExchange} {o : SbOut} (ho : o.server = [])
    (hv : ∀ ex, v = some ex → ex.got = none → st.ready = true ∧ ∃ p ps, params = p :: ps ∧
      ((ex = ⟨asciiUpper p, [], none⟩ ∧ SbMech (asciiUpper p)) ∨
       ∃ ex0, exchangeOf st c = some ex0 ∧ ex0.got = none ∧ (partText p).length = 400 ∧
        ex = { ex0 with pending := ex0.pending ++ partText p })) :
    AuthQuiet st c params (st.setSasl c v, o) := by
  refine ⟨rfl, rfl, fun d h => h, fun h => h, ho, ?_⟩
  intro d ex h hg
  simp only [exchange_setSasl] at h
  split at h
  · rename_i hd
    split at h
    · obtain ⟨h1, h2⟩ := hv ex h hg
      exact .inr ⟨hd, h1, h2⟩
    · cases h
  · rename_i hd; exact .inl ⟨h, .inl hd⟩

theorem quiet_leave {st : SbState} {c : Nat} {params : List Str} : AuthQuiet st c params (st.leave c, .none) := by
  refine ⟨rfl, rfl, ?_, ?_, rfl, ?_⟩
  · intro d h
    simp only [SbState.leave, List.mem_append, List.mem_filter] at h
    rcases h with h | h
    · exact List.mem_of_mem_take h
    · exact List.mem_of_mem_drop h.1
  · intro h
    simp only [SbState.leave]
    have : st.queue.drop 1 = [] := by rw [List.drop_eq_nil_iff]; exact h
    rw [this]; simp; omega
  · intro d ex h _
    simp only [exchange_leave] at h
    split at h
    · cases h
    · rename_i hd; exact .inl ⟨h, .inl hd⟩

theorem sbAuth_cases (oauth) (st : SbState) (c : Nat) (cl : SbClient) (hc : st.clients c = some cl) (params : List Str) :
    AuthQuiet st c params (sbAuth oauth st c cl params) ∨ AuthPass st c params (sbAuth oauth st c cl params) := by
  have hex : exchangeOf st c = cl.sasl := by simp [exchangeOf, hc]
  unfold sbAuth
  split
  · rename_i hr
    exact .inl ⟨rfl, rfl, fun d h => h, fun h => h, rfl, fun d ex h _ => .inl ⟨h, .inr hr⟩⟩
  rename_i hr
  have hr : st.ready = true := by simpa using hr
  split
  · exact .inl (quiet_set rfl (fun _ h => by cases h))
  split
  · exact .inl (quiet_set rfl (fun _ h => by cases h))
  rename_i p ps
  split
  · exact .inl (quiet_set rfl (fun _ h => by cases h))
  split
  · dsimp only
    split
    · rename_i hk
      exact .inl (quiet_set rfl (fun ex h _ => ⟨hr, p, ps, rfl, .inl ⟨by simpa using h.symm, hk⟩⟩))
    · exact .inl (quiet_set rfl (fun _ h => by cases h))
  rename_i ex0 hsome
  rw [hsome] at hex
  split
  · rename_i pending hw
    obtain ⟨h1, h2⟩ := saslReceive_wait hw
    refine .inl (quiet_set rfl (fun ex h hg => ⟨hr, p, ps, rfl, .inr ⟨ex0, hex, ?_, h1, ?_⟩⟩))
    · simp only [Option.some.injEq] at h; rw [← h] at hg; exact hg
    · simp only [Option.some.injEq] at h; rw [← h, h2]
  · exact .inl (quiet_set rfl (fun _ h => by cases h))
  · exact .inl (quiet_set rfl (fun _ h => by cases h))
  rename_i pend resp hresp
  have hdec := saslReceive_resp hresp
  split
  · exact .inl quiet_leave
  rename_i hgot
  have hgot : ex0.got = none := by cases h : ex0.got <;> simp_all
  split
  · exact .inl quiet_leave
  rename_i cr hcr
  unfold sbFinish
  split
  · exact .inl (quiet_set rfl (fun _ h => by cases h))
  rename_i hcl
  have hcl : st.client = none := by cases h : st.client <;> simp_all
  split
  · rename_i i u pw
    dsimp only
    split
    · exact .inl (quiet_set rfl (fun ex h hg => by
        simp only [Option.some.injEq] at h; rw [← h] at hg; simp at hg))
    · rename_i hid
      have hpm : ex0.mech = b!"PLAIN" ∧ plainParse resp = some (.plain i u pw) := by
        split at hcr
        · rename_i hm; exact ⟨hm, hcr⟩
        · split at hcr
          · cases ho : oauth resp <;> simp [ho] at hcr
          · simp at hcr
      obtain ⟨h1, h2, h3, h4⟩ := plainParse_some hpm.2
      refine .inr ⟨hcl, hr, ?_, ?_, rfl, rfl, ?_⟩
      · intro hq; simp [sbEnqueue, SbState.setSasl, hq]
      · refine ⟨p, ps, ex0, i, u, pw, rfl, hex, hgot, hpm.1, by rw [hdec, h1], h2, h3, h4, ?_, rfl⟩
        by_cases hi : i = []
        · exact .inl hi
        · exact .inr (Classical.not_not.1 (fun hh => hid ⟨hi, hh⟩))
      · intro d ex h hg
        have h : exchangeOf (st.setSasl c (some { ex0 with pending := [], got := some (u, pw) })) d = some ex := h
        rw [exchange_setSasl] at h
        split at h
        · split at h
          · simp only [Option.some.injEq] at h; rw [← h] at hg; simp at hg
          · cases h
        · rename_i hd; exact ⟨hd, h⟩
  · exact .inl (quiet_set rfl (fun _ h => by cases h))
  · exact .inl (quiet_set rfl (fun _ h => by cases h))

/-- What a message of the server does. -/
structure ServerDoes (st : SbState) (m : Msg) (r : SbState × SbOut) : Prop where
  ready : r.1.ready = st.ready
  ex : ∀ d ex, exchangeOf r.1 d = some ex → exchangeOf st d = some ex
  ends : EndsExchange m → r.1.client = none ∧ r.1.queue = st.queue.drop 1
  goes : ¬ EndsExchange m → r.1.client = st.client ∧ (r.1.queue = st.queue ∨ r.1.queue = st.queue.drop 1)

theorem ended_does {st : SbState} {m : Msg} (hm : m.command ∈ saslEndNumerics) :
    ServerDoes st m (sbEnded st m.command m.params) := by
  unfold sbEnded
  split
  · rename_i hl
    refine ⟨rfl, fun _ _ h => h, ?_, fun _ => ⟨rfl, .inl rfl⟩⟩
    intro h
    rcases h with ⟨_, h⟩ | ⟨h, _⟩
    · omega
    · exfalso
      revert hm h
      generalize m.command = k
      intro hm h
      simp only [saslEndNumerics, List.mem_cons, List.not_mem_nil, or_false] at hm h
      rcases hm with rfl | rfl | rfl | rfl | rfl <;> revert h <;> decide
  · rename_i hl
    have he : EndsExchange m := .inl ⟨hm, by omega⟩
    dsimp only
    have hq : ∀ st' : SbState, (sbDequeue st').1 = { st' with queue := st'.queue.drop 1 } := fun _ => rfl
    split
    · exact ⟨rfl, fun _ _ h => h, fun _ => ⟨rfl, rfl⟩, fun h => absurd he h⟩
    · split
      · exact ⟨rfl, fun _ _ h => h, fun _ => ⟨rfl, rfl⟩, fun h => absurd he h⟩
      · refine ⟨rfl, ?_, fun _ => ⟨rfl, rfl⟩, fun h => absurd he h⟩
        intro d ex h
        simp only [exchange_setSasl] at h
        split at h
        · split at h <;> cases h
        · exact h

theorem server_does (st : SbState) (m : Msg) (label : Option Nat) : ServerDoes st m (sbServer st m label) := by
  unfold sbServer
  split
  · rename_i hc
    have hn : ¬ EndsExchange m := by
      unfold EndsExchange; rw [hc]; rintro (⟨h, _⟩ | ⟨h, _⟩) <;> revert h <;> decide
    unfold sbChallenge
    split
    · exact ⟨rfl, fun _ _ h => h, fun h => absurd h hn, fun _ => ⟨rfl, .inl rfl⟩⟩
    · split
      · exact ⟨rfl, fun _ _ h => h, fun h => absurd h hn, fun _ => ⟨rfl, .inl rfl⟩⟩
      · split
        · exact ⟨rfl, fun _ _ h => h, fun h => absurd h hn, fun _ => ⟨rfl, .inl rfl⟩⟩
        · split
          · exact ⟨rfl, fun _ _ h => h, fun h => absurd h hn, fun _ => ⟨rfl, .inl rfl⟩⟩
          · exact ⟨rfl, fun _ _ h => h, fun h => absurd h hn, fun _ => ⟨rfl, .inl rfl⟩⟩
  rename_i hna
  split
  · rename_i hm; exact ended_does hm
  rename_i hne
  split
  · rename_i hr
    split
    · rename_i h1
      unfold sbRefused
      split
      · rename_i hl
        refine ⟨rfl, fun _ _ h => h, ?_, fun _ => ⟨rfl, .inl rfl⟩⟩
        rintro (⟨h, _⟩ | ⟨_, _, h⟩)
        · exact absurd h hne
        · omega
      · rename_i hl
        exact ⟨rfl, fun _ _ h => h, fun _ => ⟨rfl, rfl⟩, fun h => absurd (.inr ⟨by simpa using hr, h1, by omega⟩) h⟩
    · rename_i h1
      refine ⟨rfl, fun _ _ h => h, ?_, fun _ => ⟨rfl, .inl rfl⟩⟩
      rintro (⟨h, _⟩ | ⟨_, h, _⟩)
      · exact absurd h hne
      · exact absurd h h1
  rename_i hr
  have hn : ¬ EndsExchange m := by
    rintro (⟨h, _⟩ | ⟨h, _⟩)
    · exact hne h
    · exact hr (by simpa using h)
  split
  · split
    · unfold sbFail
      split
      · exact ⟨rfl, fun _ _ h => h, fun h => absurd h hn, fun _ => ⟨rfl, .inl rfl⟩⟩
      · exact ⟨rfl, fun _ _ h => h, fun h => absurd h hn, fun _ => ⟨rfl, .inr rfl⟩⟩
    · exact ⟨rfl, fun _ _ h => h, fun h => absurd h hn, fun _ => ⟨rfl, .inl rfl⟩⟩
  · exact ⟨rfl, fun _ _ h => h, fun h => absurd h hn, fun _ => ⟨rfl, .inl rfl⟩⟩

theorem heard_auth {c : Nat} {ops : List SbOp} {ps : List Str} (h : netReady c ops = true) :
    heardOf c (ops ++ [.auth c ps]) = heardOf c ops ++ [ps] := by
  have := congrArg Prod.snd (talk_snoc c ops (.auth c ps))
  simp only [wordStep, h, and_self, if_true] at this
  exact this

theorem heard_deaf {c : Nat} {ops : List SbOp} {ps : List Str} (h : netReady c ops = false) :
    heardOf c (ops ++ [.auth c ps]) = heardOf c ops := by
  have := congrArg Prod.snd (talk_snoc c ops (.auth c ps))
  simpa [wordStep, h] using this

theorem open_idle {oauth} {ops : List SbOp} {op : SbOp} (h1 : ∀ m l, op ≠ .server m l) (h2 : op ≠ .lost) (h3 : ∀ b, op ≠ .made b)
    (h : (sbStep oauth (sbRun oauth ops) op).2.server = []) : serverOpen oauth (ops ++ [op]) = serverOpen oauth ops := by
  rw [open_snoc]
  cases op with
  | server m l => exact absurd rfl (h1 m l)
  | lost => exact absurd rfl h2
  | made b => exact absurd rfl (h3 b)
  | _ => simp [openStep, h]

theorem open_opens {oauth} {ops : List SbOp} {op : SbOp} (h1 : ∀ m l, op ≠ .server m l) (h2 : op ≠ .lost) (h3 : ∀ b, op ≠ .made b)
    (h : (sbStep oauth (sbRun oauth ops) op).2.server ≠ []) : serverOpen oauth (ops ++ [op]) = true := by
  rw [open_snoc]
  cases op with
  | server m l => exact absurd rfl (h1 m l)
  | lost => exact absurd rfl h2
  | made b => exact absurd rfl (h3 b)
  | _ => simp [openStep, h]

/-- An event that changes at most the clients, without AUTHENTICATE. -/
theorem inv_clients {oauth} {ops : List SbOp} {op : SbOp} {st' : SbState} (i : SbInv oauth ops (sbRun oauth ops))
    (hw : ∀ c s, (wordStep c s op).1 = s.1) (hb : ¬ Breaks op)
    (hs : serverOpen oauth (ops ++ [op]) = serverOpen oauth ops)
    (hr : st'.ready = (sbRun oauth ops).ready) (hc : st'.client = (sbRun oauth ops).client)
    (hq : ∀ d ∈ st'.queue, d ∈ (sbRun oauth ops).queue) (h1 : st'.queue.length ≤ 1)
    (hex : ∀ d ex, exchangeOf st' d = some ex → exchangeOf (sbRun oauth ops) d = some ex ∧ heardOf d (ops ++ [op]) = heardOf d ops) :
    SbInv oauth (ops ++ [op]) st' := by
  have he : ¬ EndsIt op := by cases op <;> simp_all [Breaks, EndsIt]
  refine ⟨?_, h1, ?_, ?_, ?_, ?_, ?_⟩
  · intro c; rw [ready_snoc (hw c), hr, i.ready c]
  · intro h
    have := i.idle (by rw [← hc]; exact h)
    rw [this] at hq
    cases hq' : st'.queue with
    | nil => rfl
    | cons a l => rw [hq'] at hq; exact absurd (hq a (by simp)) (by simp)
  · intro c ex h hg
    obtain ⟨h2, h3⟩ := hex c ex h
    exact ex_snoc (i.ex c ex h2 hg) h3
  · intro cl h; exact started_snoc (i.client cl (by rw [← hc]; exact h)) op hb
  · intro c h; exact asked_snoc (i.queue c (hq c h)) op he
  · rw [hs, hc]; exact i.isOpen

theorem sb_inv (oauth) (ops : List SbOp) : SbInv oauth ops (sbRun oauth ops) := by
  induction ops using snocInd with
  | nil =>
    refine ⟨fun _ => rfl, Nat.zero_le _, fun _ => rfl, ?_, ?_, ?_, rfl⟩
    · intro c ex h; cases h
    · intro cl h; cases h
    · intro c h; cases h
  | snoc ops op i =>
    rw [run_snoc]
    generalize hst : sbRun oauth ops = st at i
    have hsO : ∀ op, sbStep oauth (sbRun oauth ops) op = sbStep oauth st op := fun _ => by rw [hst]
    cases op with
    | connect c =>
      subst hst
      refine inv_clients i (fun d s => by simp only [wordStep]; split <;> rfl) (fun h => h)
        (open_idle (by simp) (by simp) (by simp) rfl) rfl rfl (fun _ h => h) i.one ?_
      intro d ex h
      by_cases hd : d = c
      · subst hd; simp [exchangeOf, sbStep] at h
      · refine ⟨by simpa [exchangeOf, sbStep, hd] using h, heard_other (by simp) ?_⟩
        intro hh; simp only [SbOp.connect.injEq] at hh; exact hd hh.symm
    | disconnect c =>
      subst hst
      have q := quiet_leave (st := sbRun oauth ops) (c := c) (params := [])
      refine inv_clients i (fun d s => rfl) (fun h => h)
        (open_idle (by simp) (by simp) (by simp) rfl) rfl rfl q.queue (q.one i.one) ?_
      intro d ex h
      simp only [sbStep, exchange_leave] at h
      split at h
      · cases h
      · exact ⟨h, heard_other (by simp) (by simp)⟩
    | cap c on =>
      subst hst
      refine inv_clients i (fun d s => rfl) (fun h => h)
        (open_idle (by simp) (by simp) (by simp) rfl) rfl rfl (fun _ h => h) i.one ?_
      intro d ex h
      refine ⟨?_, heard_other (by simp) (by simp)⟩
      simp only [exchangeOf, sbStep] at h ⊢
      by_cases hd : d = c
      · subst hd
        cases hc : (sbRun oauth ops).clients d <;> simp [hc] at h ⊢
        exact h
      · simpa [hd] using h
    | auth c params =>
      subst hst
      have hw : ∀ d s, (wordStep d s (.auth c params)).1 = s.1 := by
        intro d s; simp only [wordStep]; split <;> rfl
      have hoth : ∀ d, d ≠ c → heardOf d (ops ++ [.auth c params]) = heardOf d ops := by
        intro d hd; refine heard_other ?_ (by simp)
        intro ps hh; simp only [SbOp.auth.injEq] at hh; exact hd hh.1.symm
      cases hcl : (sbRun oauth ops).clients c with
      | none =>
        have hstep : sbStep oauth (sbRun oauth ops) (.auth c params) = (sbRun oauth ops, .none) := by
          simp [sbStep, hcl]
        rw [hstep]
        refine inv_clients i hw (fun h => h) (open_idle (by simp) (by simp) (by simp) (by rw [hstep]; rfl)) rfl rfl
          (fun _ h => h) i.one ?_
        intro d ex h
        refine ⟨h, hoth d ?_⟩
        rintro rfl; simp [exchangeOf, hcl] at h
      | some cl =>
        have hstep : sbStep oauth (sbRun oauth ops) (.auth c params) = sbAuth oauth (sbRun oauth ops) c cl params := by
          simp [sbStep, hcl]
        rw [hstep]
        rcases sbAuth_cases oauth (sbRun oauth ops) c cl hcl params with q | q
        · have hso := open_idle (oauth := oauth) (ops := ops) (op := .auth c params) (by simp) (by simp) (by simp) (by rw [hstep]; exact q.server)
          refine ⟨?_, q.one i.one, ?_, ?_, ?_, ?_, ?_⟩
          · intro d; rw [ready_snoc (hw d), q.ready, i.ready d]
          · intro h
            have := i.idle (by rw [← q.client]; exact h)
            cases hq' : (sbAuth oauth (sbRun oauth ops) c cl params).1.queue with
            | nil => rfl
            | cons a l => exact absurd (q.queue a (by rw [hq']; simp)) (by rw [this]; simp)
          · intro d ex h hg
            rcases q.ex d ex h hg with ⟨h1, h2⟩ | ⟨rfl, hr, p, ps, rfl, h2⟩
            · refine ex_snoc (i.ex d ex h1 hg) ?_
              by_cases hd : d = c
              · subst hd
                rcases h2 with h2 | h2
                · exact absurd rfl h2
                · exact heard_deaf (by rw [← i.ready d]; exact h2)
              · exact hoth d hd
            · have hh := heard_auth (ps := p :: ps) (by rw [← i.ready d]; exact hr)
              rcases h2 with ⟨rfl, hk⟩ | ⟨ex0, h3, h4, h5, rfl⟩
              · exact ⟨⟨heardOf d ops, p, ps, [], by rw [hh], rfl, by simp, rfl⟩, hk⟩
              · obtain ⟨⟨hist, m, ms, parts, g1, g2, g3, g4⟩, hk⟩ := i.ex d ex0 h3 h4
                refine ⟨⟨hist, m, ms, parts ++ [p :: ps], by rw [hh, g1]; simp, g2, ?_, ?_⟩, hk⟩
                · intro x hx; rcases List.mem_append.1 hx with hx | hx
                  · exact g3 x hx
                  · simp at hx; subst hx; exact h5
                · simp [g4]
          · intro cl' h; exact started_snoc (i.client cl' (by rw [← q.client]; exact h)) _ (fun h => h)
          · intro d h; exact asked_snoc (i.queue d (q.queue d h)) _ (fun h => h)
          · rw [hso, q.client]; exact i.isOpen
        · have hq0 := i.idle q.free
          obtain ⟨l, ls, ex0, ii, u, pw, rfl, g1, g2, g3, g4, g5, g6, g7, g8, g9⟩ := q.gave
          have hgp : GavePlain c ops l ii u pw := by
            refine ⟨ex0.pending, ?_, g4, g5, g6, g7⟩
            have := (i.ex c ex0 g1 g2).1
            rwa [g3] at this
          have hout := q.out hq0
          refine ⟨?_, ?_, ?_, ?_, ?_, ?_, ?_⟩
          · intro d; rw [ready_snoc (hw d), q.ready, i.ready d]
          · rw [q.queue, hq0]; simp
          · intro h; rw [g9] at h; cases h
          · intro d ex h hg
            obtain ⟨h1, h2⟩ := q.ex d ex h hg
            exact ex_snoc (i.ex d ex h2 hg) (hoth d h1)
          · intro cl' h
            rw [g9] at h; simp only [Option.some.injEq] at h
            exact .inr ⟨ops, c, l, ls, [], ii, u, pw, rfl, by simp, hgp, g8, h.symm⟩
          · intro d h
            rw [q.queue, hq0] at h; simp at h; subst h
            exact ⟨ops, l, ls, [], ii, u, pw, rfl, by simp, hgp, g8⟩
          · rw [open_opens (by simp) (by simp) (by simp) (by rw [hstep, hout]; simp), g9]; rfl
    | server m label =>
      subst hst
      have d := server_does (sbRun oauth ops) m label
      have hopen : serverOpen oauth (ops ++ [.server m label]) = if EndsExchange m then false else serverOpen oauth ops := by
        rw [open_snoc]; rfl
      by_cases he : EndsExchange m
      · obtain ⟨h1, h2⟩ := d.ends he
        have hq : (sbServer (sbRun oauth ops) m label).1.queue = [] := by
          rw [h2, List.drop_eq_nil_iff]; exact i.one
        refine ⟨?_, ?_, fun _ => hq, ?_, ?_, ?_, ?_⟩
        · intro c; rw [ready_snoc (fun _ => rfl)]; exact d.ready.trans (i.ready c)
        · show (sbServer (sbRun oauth ops) m label).1.queue.length ≤ 1; rw [hq]; simp
        · intro c ex h hg
          exact ex_snoc (i.ex c ex (d.ex c ex h) hg) (heard_other (by simp) (by simp))
        · intro cl h
          have : (sbServer (sbRun oauth ops) m label).1.client = some cl := h
          rw [h1] at this; cases this
        · intro c h
          have : c ∈ (sbServer (sbRun oauth ops) m label).1.queue := h
          rw [hq] at this; cases this
        · rw [hopen, if_pos he]
          show (sbServer (sbRun oauth ops) m label).1.client.isSome = false
          rw [h1]; rfl
      · obtain ⟨h1, h2⟩ := d.goes he
        refine inv_clients i (fun _ _ => rfl) he (by rw [hopen, if_neg he]) d.ready h1 ?_ ?_
          (fun c ex h => ⟨d.ex c ex h, heard_other (by simp) (by simp)⟩)
        · intro x hx
          have hx : x ∈ (sbServer (sbRun oauth ops) m label).1.queue := hx
          rcases h2 with h2 | h2 <;> rw [h2] at hx
          · exact hx
          · exact List.mem_of_mem_drop hx
        · show (sbServer (sbRun oauth ops) m label).1.queue.length ≤ 1
          have := i.one
          rcases h2 with h2 | h2 <;> rw [h2]
          · exact this
          · simp; omega
    | granted own =>
      subst hst
      have hr : ∀ c, netReady c (ops ++ [.granted own]) = true := by
        intro c; have := congrArg Prod.fst (talk_snoc c ops (.granted own)); exact this
      cases own with
      | none =>
        refine ⟨fun c => by rw [hr c]; rfl, i.one, i.idle, ?_, ?_, ?_, ?_⟩
        · intro c ex h hg
          exact ex_snoc (i.ex c ex h hg) (heard_other (by simp) (by simp))
        · intro cl h; exact started_snoc (i.client cl h) _ (fun h => h)
        · intro c h; exact asked_snoc (i.queue c h) _ (fun h => h)
        · rw [open_idle (by simp) (by simp) (by simp) rfl]; exact i.isOpen
      | some cl0 =>
        refine ⟨fun c => by rw [hr c]; rfl, i.one, (fun h => by cases h), ?_, ?_, ?_, ?_⟩
        · intro c ex h hg
          exact ex_snoc (i.ex c ex h hg) (heard_other (by simp) (by simp))
        · intro cl h
          have h : some cl0 = some cl := h
          simp only [Option.some.injEq] at h; subst h
          exact .inl ⟨ops, [], rfl, by simp⟩
        · intro c h; exact asked_snoc (i.queue c h) _ (fun h => h)
        · rw [open_opens (by simp) (by simp) (by simp) (by simp [sbStep])]; rfl
    | withdrawn =>
      subst hst
      have hr : ∀ c, netReady c (ops ++ [.withdrawn]) = false := by
        intro c; have := congrArg Prod.fst (talk_snoc c ops .withdrawn); exact this
      refine ⟨fun c => by rw [hr c]; rfl, i.one, i.idle, ?_, ?_, ?_, ?_⟩
      · intro c ex h hg
        exact ex_snoc (i.ex c ex h hg) (heard_other (by simp) (by simp))
      · intro cl h; exact started_snoc (i.client cl h) _ (fun h => h)
      · intro c h; exact asked_snoc (i.queue c h) _ (fun h => h)
      · rw [open_idle (by simp) (by simp) (by simp) rfl]; exact i.isOpen
    | lost =>
      subst hst
      have hr : ∀ c, netReady c (ops ++ [.lost]) = false := by
        intro c; have := congrArg Prod.fst (talk_snoc c ops .lost); exact this
      obtain ⟨f, h1, h2⟩ := foldl_setSasl (sbRun oauth ops).queue
        { sbRun oauth ops with ready := false, client := none, started := false, queue := [] }
      have hs : (sbStep oauth (sbRun oauth ops) .lost).1 = { sbRun oauth ops with ready := false, client := none, started := false, queue := [], clients := f } := h1
      rw [hs]
      refine ⟨fun c => by rw [hr c], by simp, fun _ => rfl, ?_, (fun cl h => by cases h), (fun c h => by cases h), ?_⟩
      · intro c ex h hg
        exact ex_snoc (i.ex c ex (h2 c ex h) hg) (heard_other (by simp) (by simp))
      · rw [open_snoc]; rfl
    | made b =>
      subst hst
      have hr : ∀ c, netReady c (ops ++ [.made b]) = b := by
        intro c; have := congrArg Prod.fst (talk_snoc c ops (.made b)); exact this
      refine ⟨fun c => by rw [hr c]; rfl, by simp [sbStep], fun _ => rfl, ?_, (fun cl h => by cases h), (fun c h => by cases h), ?_⟩
      · intro c ex h hg
        exact ex_snoc (i.ex c ex h hg) (heard_other (by simp) (by simp))
      · rw [open_snoc]; rfl

/-! ## Properties -/

/-- C116: what the bouncer answers to a challenge of the server is an abort, or the credentials of whoever has
started the exchange: either the bouncer, by its settings, when the server acknowledged `sasl`; or a client, which has
given exactly these credentials.  Since then the server has not ended an exchange, the connection was not lost, and the
bouncer has not started another exchange. -/
theorem C116_credentials (oauth : Str → Option (Str × Str)) (ops : List SbOp) (params : List Str) (label : Option Nat)
    (out : SbOut) (ho : (sbStep oauth (sbRun oauth ops) (.server ⟨b!"AUTHENTICATE", params⟩ label)).2 = out) :
    out.clients = [] ∧
    (out.server = [] ∨ out.server = [⟨b!"AUTHENTICATE", [b!"*"]⟩] ∨
     (∃ pre own post, ops = pre ++ .granted (some own) :: post ∧ (∀ x ∈ post, ¬ Breaks x) ∧
        out.server = generateSASL (match own with | .plain u p => [0] ++ u ++ [0] ++ p | .external => [])) ∨
     (∃ pre c l ls post identity user password, ops = pre ++ .auth c (l :: ls) :: post ∧ (∀ x ∈ post, ¬ Breaks x) ∧
        GavePlain c pre l identity user password ∧ (identity = [] ∨ identity = user) ∧
        out.server = generateSASL ([0] ++ user ++ [0] ++ password))) := by
  subst ho
  have i := sb_inv oauth ops
  have hs : sbStep oauth (sbRun oauth ops) (.server ⟨b!"AUTHENTICATE", params⟩ label) = sbChallenge (sbRun oauth ops) params := by
    simp [sbStep, sbServer]
  rw [hs]
  unfold sbChallenge
  split
  · exact ⟨rfl, .inl rfl⟩
  · rename_i cl hcl
    split
    · exact ⟨rfl, .inr (.inl rfl)⟩
    · split
      · exact ⟨rfl, .inr (.inl rfl)⟩
      · split
        · exact ⟨rfl, .inr (.inl rfl)⟩
        · refine ⟨rfl, ?_⟩
          rcases i.client cl hcl with ⟨pre, post, h1, h2⟩ | ⟨pre, c, l, ls, post, ii, u, p, h1, h2, h3, h4, rfl⟩
          · exact .inr (.inr (.inl ⟨pre, cl, post, h1, h2, by cases cl <;> rfl⟩))
          · exact .inr (.inr (.inr ⟨pre, c, l, ls, post, ii, u, p, h1, h2, h3, h4, rfl⟩))

theorem tell_mem {c d : Nat} {m m' : Msg} (h : (c, m) ∈ (SbOut.tell d m').clients) : c = d ∧ m = m' := by
  simp [SbOut.tell] at h; exact h

theorem auth_success {oauth} {st : SbState} {c d : Nat} {cl : SbClient} {params : List Str} {m : Msg}
    (h : (c, m) ∈ (sbAuth oauth st d cl params).2.clients) (hm : m.command = b!"903") :
    c = d ∧ ∃ ex, cl.sasl = some ex ∧ ex.got = none ∧ ex.mech ≠ b!"PLAIN" ∧ ex.mech ≠ b!"OAUTHBEARER" := by
  have no : ∀ {m' : Msg}, m'.command ≠ b!"903" → (c, m) ∈ (SbOut.tell d m').clients → False := by
    intro m' hne h
    rw [(tell_mem h).2] at hm
    exact hne hm
  unfold sbAuth at h
  split at h
  · exact (no (by decide) h).elim
  split at h
  · exact (no (by decide) h).elim
  split at h
  · exact (no (by decide) h).elim
  split at h
  · exact (no (by decide) h).elim
  split at h
  · dsimp only at h
    split at h
    · exact (no (by decide) h).elim
    · exact (no (by decide) h).elim
  rename_i ex0 hsome
  split at h
  · cases h
  · exact (no (by decide) h).elim
  · exact (no (by decide) h).elim
  split at h
  · cases h
  rename_i hgot
  split at h
  · cases h
  rename_i cr hcr
  unfold sbFinish at h
  split at h
  · exact (no (by decide) h).elim
  split at h
  · dsimp only at h
    split at h
    · exact (no (by decide) h).elim
    · cases h
  · refine ⟨(tell_mem h).1, ex0, hsome, by cases hg : ex0.got <;> simp_all, ?_, ?_⟩
    · intro hp
      rw [if_pos hp] at hcr
      obtain ⟨_, _, _, hh⟩ := plainParse_plain hcr
      cases hh
    · intro hp
      rw [hp] at hcr
      simp only [show ¬ (b!"OAUTHBEARER" = b!"PLAIN") by decide, if_false, if_true] at hcr
      cases ho : oauth _ <;> rw [ho] at hcr <;> simp at hcr
  · exact (no (by decide) h).elim

/-- C116: a client is told that it has logged in only if the server says so, for the first time since the client has
given credentials, and has ended no exchange in between; or if the client has asked to forget the credentials, with
the mechanism ANONYMOUS. -/
theorem C116_success (oauth : Str → Option (Str × Str)) (ops : List SbOp) (op : SbOp) (c : Nat) (m : Msg)
    (h : (c, m) ∈ (sbStep oauth (sbRun oauth ops) op).2.clients) (hm : m.command = b!"903") :
    (∃ label, op = .server m label ∧ ∃ pre l ls post identity user password,
      ops = pre ++ .auth c (l :: ls) :: post ∧ (∀ x ∈ post, ¬ EndsIt x) ∧ GavePlain c pre l identity user password) ∨
    (∃ ps text, op = .auth c ps ∧ Talking c ops b!"ANONYMOUS" text) := by
  have i := sb_inv oauth ops
  generalize hst : sbRun oauth ops = st at h i
  cases op with
  | auth d ps =>
    right
    simp only [sbStep] at h
    split at h
    · cases h
    · rename_i cl hcl
      obtain ⟨rfl, ex, h1, h2, h3, h4⟩ := auth_success h hm
      have hex : exchangeOf st c = some ex := by simp [exchangeOf, hcl, h1]
      obtain ⟨ht, hk⟩ := i.ex c ex hex h2
      rcases hk with hk | hk | hk
      · exact absurd hk h3
      · exact absurd hk h4
      · rw [hk] at ht; exact ⟨ps, _, rfl, ht⟩
  | server m' label =>
    left
    simp only [sbStep, sbServer] at h
    split at h
    · unfold sbChallenge at h
      split at h
      · cases h
      · split at h
        · cases h
        · split at h
          · cases h
          · split at h <;> cases h
    split at h
    · unfold sbEnded at h
      split at h
      · cases h
      dsimp only at h
      split at h
      · cases h
      rename_i c' hc'
      split at h
      · cases h
      simp only [List.mem_singleton, Prod.mk.injEq] at h
      obtain ⟨rfl, h⟩ := h
      have hq : c ∈ st.queue := by
        simp only [sbDequeue] at hc'
        split at hc'
        · cases hc'
        · rename_i hq
          split at hc'
          · simp only [Option.some.injEq] at hc'; rw [hq, hc']; simp
          · cases hc'
      obtain ⟨pre, l, ls, post, ii, u, p, g1, g2, g3, _⟩ := i.queue c hq
      exact ⟨label, by rw [h], pre, l, ls, post, ii, u, p, g1, g2, g3⟩
    split at h
    · rename_i hr
      split at h
      · unfold sbRefused at h
        split at h
        · cases h
        · exfalso
          dsimp only at h
          simp only [Option.mem_toList, Option.map_eq_some_iff, Prod.mk.injEq] at h
          obtain ⟨_, _, _, rfl⟩ := h
          simp only at hm
          rw [hm] at hr
          revert hr; decide
      · cases h
    split at h
    · split at h
      · unfold sbFail at h
        split at h
        · cases h
        · exfalso
          dsimp only at h
          simp only [Option.mem_toList, Option.map_eq_some_iff, Prod.mk.injEq] at h
          obtain ⟨_, _, _, rfl⟩ := h
          exact absurd hm (by show ¬ (b!"FAIL" = b!"903"); decide)
      · cases h
    · cases h
  | granted own => cases own <;> cases h
  | lost =>
    exfalso
    simp only [sbStep, sbAbort, List.mem_map, Prod.mk.injEq] at h
    obtain ⟨_, _, _, rfl⟩ := h
    revert hm; decide
  | _ => cases h

/-- C116: the bouncer starts an exchange with the server for a client only if none is open and the network can be
logged in to, and only with complete credentials of that client. -/
theorem C116_alone (oauth : Str → Option (Str × Str)) (ops : List SbOp) (c : Nat) (params : List Str)
    (h : (sbStep oauth (sbRun oauth ops) (.auth c params)).2.server ≠ []) :
    serverOpen oauth ops = false ∧ netReady c ops = true ∧
    (sbStep oauth (sbRun oauth ops) (.auth c params)).2 = ⟨[⟨b!"AUTHENTICATE", [b!"PLAIN"]⟩], []⟩ ∧
    ∃ l ls identity user password, params = l :: ls ∧ GavePlain c ops l identity user password ∧
      (identity = [] ∨ identity = user) := by
  have i := sb_inv oauth ops
  cases hcl : (sbRun oauth ops).clients c with
  | none => simp [sbStep, hcl, SbOut.none] at h
  | some cl =>
    have hs : sbStep oauth (sbRun oauth ops) (.auth c params) = sbAuth oauth (sbRun oauth ops) c cl params := by
      simp [sbStep, hcl]
    rw [hs] at h ⊢
    rcases sbAuth_cases oauth (sbRun oauth ops) c cl hcl params with q | q
    · exact absurd q.server h
    · obtain ⟨l, ls, ex0, ii, u, pw, h1, g1, g2, g3, g4, g5, g6, g7, g8, g9⟩ := q.gave
      refine ⟨?_, ?_, q.out (i.idle q.free), l, ls, ii, u, pw, h1, ⟨ex0.pending, ?_, g4, g5, g6, g7⟩, g8⟩
      · rw [← i.isOpen, q.free]; rfl
      · rw [← i.ready c]; exact q.open_
      · have := (i.ex c ex0 g1 g2).1
        rwa [g3] at this

/-- What is sent to the server and to clients in the course of a history. -/
def sbOuts (oauth : Str → Option (Str × Str)) (st : SbState) : List SbOp → List Msg × List (Nat × Msg)
  | [] => ([], [])
  | op :: ops =>
    ((sbStep oauth st op).2.server ++ (sbOuts oauth (sbStep oauth st op).1 ops).1,
     (sbStep oauth st op).2.clients ++ (sbOuts oauth (sbStep oauth st op).1 ops).2)

theorem sbOuts_append (oauth) (st : SbState) (a b : List SbOp) : sbOuts oauth st (a ++ b) =
    ((sbOuts oauth st a).1 ++ (sbOuts oauth (a.foldl (fun st op => (sbStep oauth st op).1) st) b).1,
     (sbOuts oauth st a).2 ++ (sbOuts oauth (a.foldl (fun st op => (sbStep oauth st op).1) st) b).2) := by
  induction a generalizing st with
  | nil => simp [sbOuts]
  | cons op a ih => simp [sbOuts, ih]

theorem started_idle (oauth) (ops : List SbOp) : (sbRun oauth ops).client = none → (sbRun oauth ops).started = false := by
  induction ops using snocInd with
  | nil => intro _; rfl
  | snoc ops op ih =>
    rw [run_snoc]
    generalize sbRun oauth ops = st at ih
    cases op with
    | connect c => exact ih
    | disconnect c => exact ih
    | cap c on => exact ih
    | auth c params =>
      simp only [sbStep]
      cases hcl : st.clients c with
      | none => exact ih
      | some cl =>
        simp only
        intro h
        have hs : (sbAuth oauth st c cl params).1.started = st.started := by
          unfold sbAuth sbFinish SbState.leave SbState.setSasl sbEnqueue
          repeat' split
          all_goals first | rfl | (dsimp only; split <;> first | rfl | (split <;> rfl))
        rcases sbAuth_cases oauth st c cl hcl params with q | q
        · rw [hs]; exact ih (by rw [← q.client]; exact h)
        · obtain ⟨l, ls, ex0, ii, u, pw, h1, g1, g2, g3, g4, g5, g6, g7, g8, g9⟩ := q.gave
          rw [g9] at h; cases h
    | server m label =>
      simp only [sbStep, sbServer]
      split
      · unfold sbChallenge
        repeat' split
        all_goals first | exact ih | (intro h; simp_all)
      · split
        · unfold sbEnded
          split
          · exact ih
          · dsimp only
            repeat' split
            all_goals (intro _; rfl)
        · split
          · split
            · unfold sbRefused
              split
              · exact ih
              · intro _; rfl
            · exact ih
          · split
            · split
              · unfold sbFail
                split
                · exact ih
                · exact ih
              · exact ih
            · exact ih
    | granted own => cases own with
      | none => exact ih
      | some cl => intro h; cases h
    | withdrawn => exact ih
    | lost =>
      intro _
      obtain ⟨f, h1, _⟩ := foldl_setSasl st.queue { st with ready := false, client := none, started := false, queue := [] }
      show (sbAbort st).1.started = false
      simp only [sbAbort, h1]
    | made b => intro _; rfl

theorem part_chunk {e : Str} (h : e.length % 4 = 0) : partText (if e = [] then b!"+" else e) = e := by
  by_cases he : e = []
  · simp [he, partText]
  · have : e ≠ [43] := by rintro rfl; simp at h
    simp [he, partText, this]

theorem auth_of {oauth} {st : SbState} {c : Nat} {cl : SbClient} (h : st.clients c = some cl) (ps : List Str) :
    sbStep oauth st (.auth c ps) = sbAuth oauth st c cl ps := by simp [sbStep, h]

/-- Feeding the lines of a response. -/
theorem feed (oauth) (e : Str) (hmod : e.length % 4 = 0) (c : Nat) (u p : Str) (hu : 0 ∉ u) (hp : 0 ∉ p) (pending : Str)
    (st : SbState) (hr : st.ready = true) (hc : st.client = none) (hq : st.queue = [])
    (hcl : st.clients c = some ⟨true, some ⟨b!"PLAIN", pending, none⟩⟩) (hlen : pending.length + e.length ≤ 10240)
    (hdec : Base64.decode .std (pending ++ e) = some ([0] ++ u ++ [0] ++ p)) :
    let ops := (saslChunks e).map (fun l => SbOp.auth c [l])
    let st' := ops.foldl (fun st op => (sbStep oauth st op).1) st
    sbOuts oauth st ops = ([⟨b!"AUTHENTICATE", [b!"PLAIN"]⟩], []) ∧ st'.ready = true ∧ st'.client = some (.plain u p) ∧
      st'.queue = [c] ∧ st'.started = st.started ∧ st'.clients c = some ⟨true, some ⟨b!"PLAIN", [], some (u, p)⟩⟩ := by
  fun_induction saslChunks e generalizing pending st with
  | case1 e hlt =>
    simp only [maxSASLLength] at hlt
    have hx := part_chunk hmod
    have hx2 : (if e = [] then b!"+" else e) ≠ b!"*" := by
      by_cases he : e = []
      · simp [he]
      · simp only [he, if_false]; rintro rfl; simp at hmod
    generalize (if e = [] then b!"+" else e) = chunk at hx hx2
    have hrec : saslReceive pending chunk = ([], .response ([0] ++ u ++ [0] ++ p)) := by
      rw [saslReceive_eq, hx, if_neg (by omega), if_neg (by omega), hdec]
    have hpp : plainParse ([0] ++ u ++ [0] ++ p) = some (.plain [] u p) := by
      have := splitByte_joinStr 0 [[], u, p] (by simp) (by simp [hu, hp])
      simp only [joinStr] at this
      unfold plainParse
      simp only [List.nil_append, List.append_assoc] at this ⊢
      rw [this]
    have hstep : sbStep oauth st (.auth c [chunk]) = sbFinish st c ⟨b!"PLAIN", pending, none⟩ (.plain [] u p) := by
      rw [auth_of hcl]
      unfold sbAuth
      simp [hr, hx2, hrec]
      rw [show ((0 : Nat) :: (u ++ 0 :: p)) = [0] ++ u ++ [0] ++ p by simp, hpp]
    simp only [List.map_cons, List.map_nil, List.foldl_cons, List.foldl_nil, sbOuts, hstep, List.append_nil]
    unfold sbFinish
    simp [hc, sbEnqueue, SbState.setSasl, hq, hcl, hr]
  | case2 e hge ih =>
    simp only [maxSASLLength] at hge ih
    have h400 : (e.take 400).length = 400 := by simp; omega
    have hne : e.take 400 ≠ b!"+" := by intro h; rw [h] at h400; simp at h400
    have hne2 : e.take 400 ≠ b!"*" := by intro h; rw [h] at h400; simp at h400
    have hpt : partText (e.take 400) = e.take 400 := by simp [partText, hne]
    have hrec : saslReceive pending (e.take 400) = (pending ++ e.take 400, .wait) := by
      rw [saslReceive_eq, hpt, if_neg (by rw [h400]; omega), if_pos h400]
    have hstep : sbStep oauth st (.auth c [e.take 400]) =
        (st.setSasl c (some ⟨b!"PLAIN", pending ++ e.take 400, none⟩), .none) := by
      rw [auth_of hcl]
      unfold sbAuth
      simp [hr, hne2, hrec]
    have := ih (by simp; omega) (pending ++ e.take 400) (st.setSasl c (some ⟨b!"PLAIN", pending ++ e.take 400, none⟩))
      hr hc hq (by simp [SbState.setSasl, hcl]) (by simp; omega) (by simpa using hdec)
    simp only [maxSASLLength, List.map_cons, List.foldl_cons, sbOuts, hstep] at this ⊢
    exact this

/-- C116: whenever the network can be logged in to and no exchange with the server is open, a client that is connected,
has SASL and is not in an exchange can log in as if it talked to the server itself: it chooses PLAIN and is asked for
the response; the server gets the choice and then, when it asks, exactly the same lines of the response; what the
server answers, success or failure, is what the client gets.  After that the client, and any other, can try again. -/
theorem C116_login (oauth : Str → Option (Str × Str)) (ops : List SbOp) (c : Nat) (user password : Str)
    (num : Str) (ps : List Str) (hn : num ∈ [b!"902", b!"903", b!"904", b!"905", b!"906"]) (hps : 2 ≤ ps.length)
    (hr : netReady c ops = true) (ho : serverOpen oauth ops = false) (hc : (sbRun oauth ops).clients c = some ⟨true, none⟩)
    (hu : 0 ∉ user) (hp : 0 ∉ password) (hb : ∀ b ∈ user ++ password, b < 256)
    (hlen : (user.length + password.length + 2 + 2) / 3 * 4 ≤ 10240) :
    let resp := generateSASL ([0] ++ user ++ [0] ++ password)
    let h := [.auth c [b!"PLAIN"]] ++ resp.map (fun m => .auth c m.params) ++
      [.server ⟨b!"AUTHENTICATE", [b!"+"]⟩ none, .server ⟨num, ps⟩ none]
    sbOuts oauth (sbRun oauth ops) h =
      ([⟨b!"AUTHENTICATE", [b!"PLAIN"]⟩] ++ resp, [(c, ⟨b!"AUTHENTICATE", [b!"+"]⟩), (c, ⟨num, ps⟩)]) ∧
    netReady c (ops ++ h) = true ∧ serverOpen oauth (ops ++ h) = false ∧
    (sbRun oauth (ops ++ h)).clients c = some ⟨true, none⟩ := by
  intro resp h
  have i := sb_inv oauth ops
  have hcn : (sbRun oauth ops).client = none := by
    have := i.isOpen; rw [ho] at this
    cases hh : (sbRun oauth ops).client <;> simp_all
  have hq := i.idle hcn
  have hst := started_idle oauth ops hcn
  have hrd : (sbRun oauth ops).ready = true := by rw [i.ready c, hr]
  generalize hs0 : sbRun oauth ops = st0 at *
  have hstep1 : sbStep oauth st0 (.auth c [b!"PLAIN"]) =
      (st0.setSasl c (some ⟨b!"PLAIN", [], none⟩), .tell c ⟨b!"AUTHENTICATE", [b!"+"]⟩) := by
    have hup : asciiUpper b!"PLAIN" = b!"PLAIN" := by decide
    have hst' : b!"PLAIN" ≠ b!"*" := by decide
    rw [auth_of hc]
    unfold sbAuth
    rw [if_neg (by rw [hrd]; simp)]
    dsimp only
    rw [if_neg (by simp), if_neg hst', hup, if_pos (.inl rfl)]
  have hl := encode_std_length ([0] ++ user ++ [0] ++ password)
  have hlen' : ([0] ++ user ++ [0] ++ password).length = user.length + password.length + 2 := by simp; omega
  have hfeed := feed oauth (Base64.encode .std ([0] ++ user ++ [0] ++ password)) (by rw [hl]; omega) c user password hu hp []
    (st0.setSasl c (some ⟨b!"PLAIN", [], none⟩)) hrd hcn hq (by simp [SbState.setSasl, hc])
    (by rw [hl, hlen']; simpa using hlen)
    (by
      rw [List.nil_append]
      refine decode_encode .std _ ?_
      intro b hb'
      simp only [List.mem_append, List.mem_singleton] at hb'
      rcases hb' with ((rfl | h) | rfl) | h
      · omega
      · exact hb b (by simp [h])
      · omega
      · exact hb b (by simp [h]))
  have hmap : resp.map (fun m => SbOp.auth c m.params) =
      (saslChunks (Base64.encode .std ([0] ++ user ++ [0] ++ password))).map (fun l => SbOp.auth c [l]) := by
    simp [resp, generateSASL]
  rw [← hmap] at hfeed
  obtain ⟨f1, f2, f3, f4, f5, f6⟩ := hfeed
  generalize hs2 : (resp.map (fun m => SbOp.auth c m.params)).foldl (fun st op => (sbStep oauth st op).1)
    (st0.setSasl c (some ⟨b!"PLAIN", [], none⟩)) = st2 at *
  have f5 : st2.started = false := by rw [f5]; exact hst
  have hstep3 : sbStep oauth st2 (.server ⟨b!"AUTHENTICATE", [b!"+"]⟩ none) =
      ({ st2 with started := true }, ⟨resp, []⟩) := by
    simp [sbStep, sbServer, sbChallenge, f3, f5, resp, SaslClient.start]
  have hnum : num ≠ b!"AUTHENTICATE" := by rintro rfl; revert hn; decide
  have hstep4 : sbStep oauth { st2 with started := true } (.server ⟨num, ps⟩ none) =
      (({ st2 with started := false, client := none, queue := [] } : SbState).setSasl c none, ⟨[], [(c, ⟨num, ps⟩)]⟩) := by
    have hn' : num ∈ saslEndNumerics := hn
    have hps' : ¬ ps.length < 2 := by omega
    simp only [sbStep, sbServer, hnum, if_false, hn', if_true, sbEnded, hps', sbDequeue, f4, f6, Option.isSome_some, Option.bind_some,
      List.drop_succ_cons, List.drop_nil]
  have hrun : sbRun oauth (ops ++ h) = (({ st2 with started := false, client := none, queue := [] } : SbState).setSasl c none) := by
    simp only [sbRun, h, List.foldl_append, List.foldl_cons, List.foldl_nil]
    have : List.foldl (fun st op => (sbStep oauth st op).1) sbInit ops = st0 := hs0
    rw [this, hstep1]; dsimp only; rw [hs2, hstep3]; dsimp only; rw [hstep4]
  have i2 := sb_inv oauth (ops ++ h)
  rw [hrun] at i2 ⊢
  refine ⟨?_, ?_, ?_, ?_⟩
  · simp only [h, sbOuts_append, List.foldl_append, List.foldl_cons, List.foldl_nil, sbOuts, hstep1, hs2, hstep3, hstep4, f1]
    simp [SbOut.tell]
  · rw [← i2.ready c]; exact f2
  · rw [← i2.isOpen]; rfl
  · simp [SbState.setSasl, f6]

/-- What AUTHENTICATE of a client leaves when it is told the end. -/
theorem auth_over {oauth} {st : SbState} {c : Nat} {cl : SbClient} (hcl : st.clients c = some cl) {params : List Str} {d : Nat} {m : Msg}
    (h : (d, m) ∈ (sbAuth oauth st c cl params).2.clients) (hr : st.ready = true) (hm : m.command ≠ b!"AUTHENTICATE") :
    d = c ∧ (exchangeOf (sbAuth oauth st c cl params).1 c = none ∨
      ∃ l ls ex0 i u p, params = l :: ls ∧ exchangeOf st c = some ex0 ∧ ex0.got = none ∧ ex0.mech = b!"PLAIN" ∧
        Base64.decode .std (ex0.pending ++ partText l) = some (i ++ [0] ++ u ++ [0] ++ p) ∧ 0 ∉ i ∧ 0 ∉ u ∧ 0 ∉ p ∧
        i ≠ [] ∧ i ≠ u) := by
  have hex : exchangeOf st c = cl.sasl := by simp [exchangeOf, hcl]
  have hset : exchangeOf (st.setSasl c none) c = none := by rw [exchange_setSasl]; simp
  unfold sbAuth at h ⊢
  rw [if_neg (by rw [hr]; simp)] at h ⊢
  split at h
  · rename_i hcap; rw [if_pos hcap]; exact ⟨(tell_mem h).1, .inl hset⟩
  rename_i hcap
  rw [if_neg hcap]
  split at h
  · exact ⟨(tell_mem h).1, .inl hset⟩
  rename_i p ps
  dsimp only
  split at h
  · rename_i hp; rw [if_pos hp]; exact ⟨(tell_mem h).1, .inl hset⟩
  rename_i hp
  rw [if_neg hp]
  split at h
  · dsimp only at h ⊢
    split at h
    · exact absurd (by rw [(tell_mem h).2]) hm
    · rename_i hk; rw [if_neg hk]; exact ⟨(tell_mem h).1, .inl hset⟩
  rename_i ex0 hsome
  rw [hsome] at hex
  split at h
  · cases h
  · exact ⟨(tell_mem h).1, .inl hset⟩
  · exact ⟨(tell_mem h).1, .inl hset⟩
  rename_i pend resp hresp
  have hdec := saslReceive_resp hresp
  split at h
  · cases h
  rename_i hgot
  rw [if_neg hgot]
  have hgot : ex0.got = none := by cases h : ex0.got <;> simp_all
  split at h
  · cases h
  rename_i cr hcr
  unfold sbFinish at h ⊢
  split at h
  · rename_i hcs; rw [if_pos hcs]; exact ⟨(tell_mem h).1, .inl hset⟩
  rename_i hcs
  rw [if_neg hcs]
  split at h
  · rename_i i u pw
    dsimp only at h ⊢
    split at h
    · rename_i hid
      refine ⟨(tell_mem h).1, .inr ⟨p, ps, ex0, i, u, pw, rfl, hex, hgot, ?_⟩⟩
      have hpm : ex0.mech = b!"PLAIN" ∧ plainParse resp = some (.plain i u pw) := by
        split at hcr
        · rename_i hm; exact ⟨hm, hcr⟩
        · split at hcr
          · cases ho : oauth resp <;> simp [ho] at hcr
          · simp at hcr
      obtain ⟨h1, h2, h3, h4⟩ := plainParse_some hpm.2
      exact ⟨hpm.1, by rw [hdec, h1], h2, h3, h4, hid.1, hid.2⟩
    · cases h
  · exact ⟨(tell_mem h).1, .inl hset⟩
  · exact ⟨(tell_mem h).1, .inl hset⟩

/-- C116 in part: when a client is told with one of the numerics of SASL (902 to 906) that its exchange is over, then
it is: if it may, it can start another, and is asked for its response.  Missing: a client that is told so because the
network cannot be logged in to (`C116_lost_violated`), one that has given a different identity
(`C116_identity_violated`), and other messages of the server (`C116_again_violated`, `C116_already_violated`). -/
theorem C116_over_partial (oauth : Str → Option (Str × Str)) (ops : List SbOp) (op : SbOp) (c : Nat) (m : Msg)
    (h : (c, m) ∈ (sbStep oauth (sbRun oauth ops) op).2.clients)
    (hm : m.command ∈ [b!"902", b!"903", b!"904", b!"905", b!"906"])
    (hr : netReady c ops = true ∨ ∀ ps, op ≠ .auth c ps)
    (hid : ∀ l ls i u p, op = .auth c (l :: ls) → GavePlain c ops l i u p → i = [] ∨ i = u)
    (cl : SbClient) (hcl : (sbRun oauth (ops ++ [op])).clients c = some cl) (hcap : cl.cap = true)
    (hnow : netReady c (ops ++ [op]) = true) :
    (sbStep oauth (sbRun oauth (ops ++ [op])) (.auth c [b!"PLAIN"])).2 = ⟨[], [(c, ⟨b!"AUTHENTICATE", [b!"+"]⟩)]⟩ := by
  have hma : m.command ≠ b!"AUTHENTICATE" := by
    intro hh; rw [hh] at hm; revert hm; decide
  have key : exchangeOf (sbRun oauth (ops ++ [op])) c = none → (sbStep oauth (sbRun oauth (ops ++ [op])) (.auth c [b!"PLAIN"])).2 = ⟨[], [(c, ⟨b!"AUTHENTICATE", [b!"+"]⟩)]⟩ := by
    intro he
    have hrd : (sbRun oauth (ops ++ [op])).ready = true := by rw [(sb_inv oauth (ops ++ [op])).ready c, hnow]
    have hs : cl.sasl = none := by simpa [exchangeOf, hcl] using he
    have hup : asciiUpper b!"PLAIN" = b!"PLAIN" := by decide
    have hst' : b!"PLAIN" ≠ b!"*" := by decide
    rw [auth_of hcl]
    unfold sbAuth
    rw [if_neg (by rw [hrd]; simp), if_neg (by rw [hcap]; simp)]
    dsimp only
    rw [if_neg hst', hs]
    dsimp only
    rw [hup, if_pos (.inl rfl)]
    rfl
  apply key
  rw [run_snoc]
  have i := sb_inv oauth ops
  generalize hst : sbRun oauth ops = st at h i
  cases op with
  | auth d ps =>
    simp only [sbStep] at h ⊢
    cases hd : st.clients d with
    | none => rw [hd] at h; cases h
    | some cl' =>
      rw [hd] at h
      dsimp only at h ⊢
      have hcd : c = d := by
        unfold sbAuth at h
        by_cases hready : st.ready = true
        · exact (auth_over hd (by unfold sbAuth; exact h) hready hma).1
        · rw [if_pos (by simpa using hready)] at h; exact (tell_mem h).1
      subst hcd
      have hready : st.ready = true := by
        rcases hr with hr | hr
        · rw [i.ready c, hr]
        · exact absurd rfl (hr ps)
      rcases (auth_over hd h hready hma).2 with h1 | ⟨l, ls, ex0, ii, u, p, rfl, g1, g2, g3, g4, g5, g6, g7, g8, g9⟩
      · exact h1
      · exfalso
        have hg : GavePlain c ops l ii u p := by
          refine ⟨ex0.pending, ?_, g4, g5, g6, g7⟩
          have := (i.ex c ex0 g1 g2).1
          rwa [g3] at this
        rcases hid l ls ii u p rfl hg with hh | hh
        · exact g8 hh
        · exact g9 hh
  | server m' label =>
    simp only [sbStep, sbServer] at h ⊢
    split at h
    · unfold sbChallenge at h
      exfalso
      revert h
      split
      · intro h; cases h
      · split
        · intro h; cases h
        · split
          · intro h; cases h
          · split <;> (intro h; cases h)
    rename_i hna
    rw [if_neg hna]
    split at h
    · rename_i hend
      rw [if_pos hend]
      unfold sbEnded at h ⊢
      split at h
      · cases h
      rename_i hl
      rw [if_neg hl]
      dsimp only at h ⊢
      split at h
      · cases h
      rename_i c' hc'
      split at h
      · cases h
      rename_i ex hex
      simp only [List.mem_singleton, Prod.mk.injEq] at h
      rw [h.1, exchange_setSasl]; simp
    rename_i hne
    split at h
    · rename_i hr'
      split at h
      · unfold sbRefused at h
        split at h
        · cases h
        · exfalso
          dsimp only at h
          simp only [Option.mem_toList, Option.map_eq_some_iff, Prod.mk.injEq] at h
          obtain ⟨_, _, _, rfl⟩ := h
          exact hne hm
      · cases h
    split at h
    · split at h
      · unfold sbFail at h
        split at h
        · cases h
        · exfalso
          dsimp only at h
          simp only [Option.mem_toList, Option.map_eq_some_iff, Prod.mk.injEq] at h
          obtain ⟨_, _, _, rfl⟩ := h
          exact absurd hm (by show ¬ (b!"FAIL" ∈ [b!"902", b!"903", b!"904", b!"905", b!"906"]); decide)
      · cases h
    · cases h
  | granted own => cases own <;> cases h
  | lost =>
    have hl : netReady c (ops ++ [.lost]) = false := by
      have := congrArg Prod.fst (talk_snoc c ops .lost); exact this
    rw [hl] at hnow; cases hnow
  | _ => cases h

/-- Two clients of a network that can be logged in to. -/
def bridgeEx : List SbOp := [.connect 1, .connect 2, .made true, .cap 1 true, .cap 2 true]

/-- A client logs in with the name `u` and the password `p`: `AHUAcA==` is the response in base64. -/
def bridgeAsk (c : Nat) : List SbOp := [.auth c [b!"PLAIN"], .auth c [b!"AHUAcA=="]]

-- the hypotheses of C116_login, and a login of which the server says that it failed
example : netReady 1 bridgeEx = true ∧ serverOpen (fun _ => none) bridgeEx = false ∧
    ((sbRun (fun _ => none) bridgeEx).clients 1) = some ⟨true, none⟩ ∧
    generateSASL ([0] ++ b!"u" ++ [0] ++ b!"p") = [⟨b!"AUTHENTICATE", [b!"AHUAcA=="]⟩] ∧
    sbOuts (fun _ => none) (sbRun (fun _ => none) bridgeEx)
      (bridgeAsk 1 ++ [.server ⟨b!"AUTHENTICATE", [b!"+"]⟩ none, .server ⟨b!"904", [b!"n", b!"no"]⟩ none]) =
      ([⟨b!"AUTHENTICATE", [b!"PLAIN"]⟩, ⟨b!"AUTHENTICATE", [b!"AHUAcA=="]⟩],
       [(1, ⟨b!"AUTHENTICATE", [b!"+"]⟩), (1, ⟨b!"904", [b!"n", b!"no"]⟩)]) := by
  refine ⟨by decide +kernel, by decide +kernel, by decide +kernel, ?_, by decide +kernel⟩
  unfold generateSASL saslChunks
  decide +kernel

-- a hypothesis of C116_credentials, C116_success and C116_alone: the credentials that were given
example : GavePlain 1 (bridgeEx ++ [.auth 1 [b!"PLAIN"]]) b!"AHUAcA==" [] b!"u" b!"p" ∧
    (sbStep (fun _ => none) (sbRun (fun _ => none) (bridgeEx ++ [.auth 1 [b!"PLAIN"]])) (.auth 1 [b!"AHUAcA=="])).2.server ≠ [] ∧
    (sbStep (fun _ => none) (sbRun (fun _ => none) (bridgeEx ++ bridgeAsk 1)) (.server ⟨b!"903", [b!"n", b!"ok"]⟩ none)).2.clients =
      [(1, ⟨b!"903", [b!"n", b!"ok"]⟩)] :=
  ⟨⟨[], ⟨[], b!"PLAIN", [], [], by decide, by decide, by simp, rfl⟩, by decide +kernel, by decide, by decide, by decide⟩,
   by decide +kernel, by decide +kernel⟩

/-- C116, disagreement: a server that does not let users log in twice says so with 907.  The bouncer does not take
this for the end of the exchange: from then on nobody can log in through this connection, whoever tries is told that
it failed, and nothing is sent to the server. -/
theorem C116_already_violated : ∃ ops : List SbOp,
    sbOuts (fun _ => none) (sbRun (fun _ => none) (bridgeEx ++ bridgeAsk 1 ++ [.server ⟨b!"AUTHENTICATE", [b!"+"]⟩ none])) ops =
      ([], [(2, ⟨b!"AUTHENTICATE", [b!"+"]⟩), (2, ⟨b!"904", []⟩)]) ∧
    ops = [.server ⟨b!"907", [b!"n", b!"You have already authenticated"]⟩ (some 1)] ++ bridgeAsk 2 :=
  ⟨_, by decide +kernel, rfl⟩

/-- C116, disagreement: the same happens when the server refuses AUTHENTICATE with the standard reply FAIL. -/
theorem C116_fail_violated : ∃ ops : List SbOp,
    sbOuts (fun _ => none) (sbRun (fun _ => none) (bridgeEx ++ bridgeAsk 1)) ops =
      ([], [(1, ⟨b!"FAIL", [b!"AUTHENTICATE", b!"NEED_REGISTRATION", b!"no"]⟩), (2, ⟨b!"AUTHENTICATE", [b!"+"]⟩), (2, ⟨b!"904", []⟩)]) ∧
    ops = [.server ⟨b!"FAIL", [b!"AUTHENTICATE", b!"NEED_REGISTRATION", b!"no"]⟩ none] ++ bridgeAsk 2 :=
  ⟨_, by decide +kernel, rfl⟩

/-- C116, disagreement: a client that is told to try again (263) and tries again is told that it failed: its
`AUTHENTICATE PLAIN` is taken for a part of the first response. -/
theorem C116_again_violated : ∃ ops : List SbOp,
    sbOuts (fun _ => none) (sbRun (fun _ => none) (bridgeEx ++ bridgeAsk 1)) ops =
      ([], [(1, ⟨b!"263", [b!"n", b!"AUTHENTICATE", b!"Please wait a while and try again."]⟩), (1, ⟨b!"904", []⟩)]) ∧
    ops = [.server ⟨b!"263", [b!"n", b!"AUTHENTICATE", b!"Please wait a while and try again."]⟩ none, .auth 1 [b!"PLAIN"]] :=
  ⟨_, by decide +kernel, rfl⟩

/-- C116, disagreement: a client that gives an identity different from its name (`i`, NUL, `u`, NUL, `p`) is told that
this failed; when it then tries to log in it is told again that it failed. -/
theorem C116_identity_violated :
    sbOuts (fun _ => none) (sbRun (fun _ => none) bridgeEx) [.auth 1 [b!"PLAIN"], .auth 1 [b!"aQB1AHA="], .auth 1 [b!"PLAIN"]] =
      ([], [(1, ⟨b!"AUTHENTICATE", [b!"+"]⟩), (1, ⟨b!"904", []⟩), (1, ⟨b!"904", []⟩)]) ∧
    Base64.decode .std b!"aQB1AHA=" = some (b!"i" ++ [0] ++ b!"u" ++ [0] ++ b!"p") :=
  ⟨by decide +kernel, by decide +kernel⟩

/-- C116, disagreement: the connection is lost while a client is asked for its response, and the client is told that
it failed; when the network can be logged in to again and the client tries again it is told again that it failed. -/
theorem C116_lost_violated :
    sbOuts (fun _ => none) (sbRun (fun _ => none) bridgeEx)
      (.auth 1 [b!"PLAIN"] :: .lost :: .auth 1 [b!"AHUAcA=="] :: .made true :: .cap 1 true :: bridgeAsk 1) =
      ([], [(1, ⟨b!"AUTHENTICATE", [b!"+"]⟩), (1, ⟨b!"904", []⟩), (1, ⟨b!"904", []⟩), (1, ⟨b!"904", []⟩)]) :=
  by decide +kernel

/-- C116, disagreement: the server withdraws `sasl` and offers it again while a client logs in.  The bouncer then logs
in as its settings say, and the client is told that it has logged in, although the server was never given what the
client said. -/
theorem C116_own_violated :
    sbOuts (fun _ => none) (sbRun (fun _ => none) bridgeEx)
      (bridgeAsk 1 ++ [.withdrawn, .granted (some (.plain b!"me" b!"secret")), .server ⟨b!"AUTHENTICATE", [b!"+"]⟩ none,
        .server ⟨b!"903", [b!"n", b!"ok"]⟩ none]) =
      ([⟨b!"AUTHENTICATE", [b!"PLAIN"]⟩, ⟨b!"AUTHENTICATE", [b!"PLAIN"]⟩, ⟨b!"AUTHENTICATE", [b!"AG1lAHNlY3JldA=="]⟩],
       [(1, ⟨b!"AUTHENTICATE", [b!"+"]⟩), (1, ⟨b!"903", [b!"n", b!"ok"]⟩)]) :=
  by decide +kernel

end Verif.Props
