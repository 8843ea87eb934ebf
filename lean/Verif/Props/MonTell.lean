import Verif.Props.Monitor

/-! # C24: what clients are told about the nicks they monitor -/

namespace Verif.Props
open Verif.Model Verif.Proof

/-! ## Specification -/

/-- The last thing said about the nick. -/
def lastStatus (n : Str) : List MonMsg → Option Bool
  | [] => none
  | m :: l =>
    match lastStatus n l with
    | some o => some o
    | none => match m with
      | .status n' o => if n' = n then some o else none
      | _ => none

/-- The network, and what each client has been told since it connected. -/
structure MonHeard where
  st : MonState
  heard : Nat → List MonMsg

/-- An event, with what the clients are told. -/
def monHear (s : MonHeard) : MonEvent → MonHeard
  | .client op =>
    ⟨(monStep s.st op).1, fun id => match op with
      | .connect id' => if id' = id ∧ GoMap.get s.st.clients id = none then [] else s.heard id
      | .add id' nicks =>
        if id' = id ∧ GoMap.get s.st.clients id ≠ none then s.heard id ++ monAddTell s.st.monitored (s.st.listOf id) nicks
        else s.heard id
      | _ => s.heard id⟩
  | .reply ns o => ⟨monReply s.st ns o, fun id => s.heard id ++ monForward (s.st.listOf id) ns o⟩
  | .nick n d => ⟨(updateMonitor { s.st with nick := n, hasDesiredNick := d }).1, s.heard⟩

/-! ## Lemmas -/

private theorem last_append (n : Str) (a b : List MonMsg) :
    lastStatus n (a ++ b) = (lastStatus n b).or (lastStatus n a) := by
  induction a with
  | nil => cases h : lastStatus n b <;> simp [h, lastStatus]
  | cons m a ih =>
    rw [List.cons_append]
    cases m <;> simp only [lastStatus, ih] <;> cases lastStatus n b <;> simp

private theorem update_clients (st : MonState) : (updateMonitor st).1.clients = st.clients := rfl

private theorem update_known {st : MonState} {n : Str} {o : Bool}
    (h : GoMap.get (updateMonitor st).1.monitored n = some o) : GoMap.get st.monitored n = some o := by
  unfold updateMonitor at h
  dsimp only at h
  generalize (st.monitored.map (·.1)).filter _ = rm at h
  revert h
  generalize st.monitored = m
  induction rm generalizing m with
  | nil => exact id
  | cons x rm ih =>
    intro h
    have := ih _ h
    rw [mget_mdel] at this
    split at this
    · cases this
    · exact this

/-- The list of the client agrees with what it has been told. -/
private def Told (m : GoMap Str Bool) (l : List Str) (heard : List MonMsg) : Prop :=
  ∀ n ∈ l, (n = serviceNickCM → lastStatus n heard = some true) ∧
    (n ≠ serviceNickCM → ∀ o, GoMap.get m n = some o → lastStatus n heard = some o)

private theorem told_add (m : GoMap Str Bool) : ∀ (ns l : List Str) (heard : List MonMsg), Told m l heard →
    Told m (ns.foldl (fun l n => (monAdd l n).1) l) (heard ++ monAddTell m l ns) := by
  intro ns
  induction ns with
  | nil => intro l heard h; rw [monAddTell, List.append_nil]; exact h
  | cons x ns ih =>
    intro l heard h
    rw [List.foldl_cons, monAddTell]
    rw [← List.append_assoc]
    apply ih
    have hkeep : ∀ n, n ∈ l → ∀ t : List MonMsg, (∀ o, lastStatus n t = some o →
        (n = serviceNickCM → o = true) ∧ (n ≠ serviceNickCM → ∀ o', GoMap.get m n = some o' → o' = o)) →
        (n = serviceNickCM → lastStatus n (heard ++ t) = some true) ∧
        (n ≠ serviceNickCM → ∀ o, GoMap.get m n = some o → lastStatus n (heard ++ t) = some o) := by
      intro n hn t ht
      rw [last_append]
      obtain ⟨h1, h2⟩ := h n hn
      cases hl : lastStatus n t with
      | none => exact ⟨fun e => by simpa using h1 e, fun e o ho => by simpa using h2 e o ho⟩
      | some o =>
        obtain ⟨t1, t2⟩ := ht o hl
        exact ⟨fun e => by simp [t1 e], fun e o' ho' => by simp [t2 e o' ho']⟩
    have hone : ∀ o n, (n = x → (n = serviceNickCM → o = true) ∧ (n ≠ serviceNickCM → ∀ o', GoMap.get m n = some o' → o' = o)) →
        ∀ o1, lastStatus n [MonMsg.status x o] = some o1 →
          (n = serviceNickCM → o1 = true) ∧ (n ≠ serviceNickCM → ∀ o', GoMap.get m n = some o' → o' = o1) := by
      intro o n hx o1 ho1
      simp only [lastStatus] at ho1
      split at ho1
      · rename_i e
        cases ho1
        exact hx e.symm
      · cases ho1
    unfold monAdd
    split
    · -- full
      intro n hn
      apply hkeep n hn
      intro o ho
      simp [lastStatus] at ho
    · simp only [Bool.true_eq_false, if_false]
      intro n hn
      have hcase : n ∈ l ∨ n = x := by
        split at hn
        · exact Or.inl hn
        · rcases List.mem_append.1 hn with h | h
          · exact Or.inl h
          · exact Or.inr (List.mem_singleton.1 h)
      by_cases hs : x = serviceNickCM
      · rw [if_pos hs]
        rcases hcase with hl | hl
        · apply hkeep n hl
          apply hone true n
          intro e
          exact ⟨fun _ => rfl, fun hne => absurd (e.trans hs) hne⟩
        · subst hl
          refine ⟨fun _ => ?_, fun hne => absurd hs hne⟩
          rw [last_append]; simp [lastStatus]
      · rw [if_neg hs]
        cases hg : GoMap.get m x with
        | none =>
          dsimp only
          rcases hcase with hl | hl
          · apply hkeep n hl
            intro o ho; cases ho
          · subst hl
            exact ⟨fun e => absurd e hs, fun _ o ho => by rw [hg] at ho; cases ho⟩
        | some o =>
          dsimp only
          rcases hcase with hl | hl
          · apply hkeep n hl
            apply hone o n
            intro e
            subst e
            exact ⟨fun e => absurd e hs, fun _ o' ho' => by rw [hg] at ho'; exact (Option.some.inj ho').symm⟩
          · subst hl
            refine ⟨fun e => absurd e hs, fun _ o' ho' => ?_⟩
            rw [hg] at ho'
            cases ho'
            rw [last_append]; simp [lastStatus]

private theorem reply_get (ns : List Str) (o : Bool) : ∀ (m : GoMap Str Bool) (n : Str),
    GoMap.get (ns.foldl (fun m n => GoMap.set m n o) m) n = if n ∈ ns then some o else GoMap.get m n := by
  induction ns with
  | nil => intro m n; simp
  | cons x ns ih =>
    intro m n
    rw [List.foldl_cons, ih, mget_mset]
    by_cases h1 : n ∈ ns
    · simp [h1]
    · by_cases h2 : x = n
      · simp [h2]
      · simp [h1, h2, Ne.symm h2]

private theorem last_forward (l ns : List Str) (o : Bool) (n : Str) :
    lastStatus n (monForward l ns o) = if n ∈ ns ∧ n ∈ l then some o else none := by
  unfold monForward
  induction ns with
  | nil => simp [lastStatus]
  | cons x ns ih =>
    rw [List.filter_cons]
    by_cases hx : x ∈ l
    · simp only [hx, decide_true, if_true, List.map_cons, lastStatus]
      rw [ih]
      by_cases h1 : n ∈ ns ∧ n ∈ l
      · simp [h1]
      · rw [if_neg h1]
        by_cases h2 : x = n
        · subst h2; simp [hx]
        · have h5 : ¬ (n ∈ x :: ns ∧ n ∈ l) := by
            rintro ⟨h3, h4⟩
            rcases List.mem_cons.1 h3 with h | h
            · exact h2 h.symm
            · exact h1 ⟨h, h4⟩
          rw [if_neg h5]
          simp [h2]
    · simp only [hx, decide_false, Bool.false_eq_true, if_false]
      rw [ih]
      by_cases h1 : n ∈ ns ∧ n ∈ l
      · rw [if_pos h1, if_pos ⟨List.mem_cons_of_mem _ h1.1, h1.2⟩]
      · rw [if_neg h1, if_neg]
        rintro ⟨h3, h4⟩
        rcases List.mem_cons.1 h3 with h | h
        · exact hx (h ▸ h4)
        · exact h1 ⟨h, h4⟩

private theorem del_sub (nicks : List Str) : ∀ l : List Str, ∀ n ∈ nicks.foldl monDel l, n ∈ l := by
  induction nicks with
  | nil => intro l n hn; exact hn
  | cons x nicks ih =>
    intro l n hn
    have := ih _ n hn
    unfold monDel at this
    exact (List.mem_filter.1 this).1

private def AllTold (s : MonHeard) : Prop :=
  ∀ id l, GoMap.get s.st.clients id = some l → Told s.st.monitored l (s.heard id)

private theorem told_weaken {m m' : GoMap Str Bool} {l l' : List Str} {heard : List MonMsg} (h : Told m l heard)
    (hl : ∀ n ∈ l', n ∈ l) (hm : ∀ n o, GoMap.get m' n = some o → GoMap.get m n = some o) : Told m' l' heard :=
  fun n hn => ⟨(h n (hl n hn)).1, fun hs o ho => (h n (hl n hn)).2 hs o (hm n o ho)⟩

private theorem hear_step (s : MonHeard) (e : MonEvent) (h : AllTold s)
    (hserv : ∀ ns o, e = .reply ns o → serviceNickCM ∉ ns) : AllTold (monHear s e) := by
  cases e with
  | client op =>
    cases op with
    | connect id =>
      intro id' l hl
      unfold monHear monStep at hl ⊢
      dsimp only at hl ⊢
      cases hg : GoMap.get s.st.clients id with
      | some l0 =>
        rw [hg] at hl
        simp only [Option.isSome_some, if_true] at hl ⊢
        rw [if_neg]
        · exact h id' l hl
        · rintro ⟨e, hn⟩; rw [e, hn] at hg; cases hg
      | none =>
        rw [hg] at hl
        simp only [Option.isSome_none, Bool.false_eq_true, if_false] at hl ⊢
        rw [mget_mset] at hl
        by_cases hid : id = id'
        · subst hid
          rw [if_pos rfl] at hl
          cases hl
          intro n hn
          cases hn
        · rw [if_neg hid] at hl
          rw [if_neg (fun e => hid e.1)]
          exact h id' l hl
    | disconnect id =>
      intro id' l hl
      unfold monHear monStep at hl ⊢
      dsimp only at hl ⊢
      rw [update_clients, mget_mdel] at hl
      split at hl
      · cases hl
      · exact told_weaken (h id' l hl) (fun n hn => hn) (fun n o ho => by have hk := update_known ho; exact hk)
    | add id nicks =>
      intro id' l hl
      unfold monHear monStep at hl ⊢
      dsimp only at hl ⊢
      cases hg : GoMap.get s.st.clients id with
      | none =>
        rw [hg] at hl
        simp only [Option.isNone_none, if_true] at hl ⊢
        rw [if_neg]
        · exact h id' l hl
        · rintro ⟨e, hn⟩; exact hn (e ▸ hg)
      | some l0 =>
        rw [hg] at hl
        simp only [Option.isNone_some, Bool.false_eq_true, if_false] at hl ⊢
        rw [update_clients, mget_mset] at hl
        by_cases hid : id = id'
        · subst hid
          rw [if_pos rfl] at hl
          cases hl
          rw [if_pos ⟨rfl, by rw [hg]; simp⟩]
          refine told_weaken (told_add s.st.monitored nicks (s.st.listOf id) (s.heard id) ?_) (fun n hn => hn)
            (fun n o ho => by have hk := update_known ho; exact hk)
          have : s.st.listOf id = l0 := by unfold MonState.listOf; rw [hg]; rfl
          rw [this]
          exact h id l0 hg
        · rw [if_neg hid] at hl
          rw [if_neg (fun e => hid e.1)]
          exact told_weaken (h id' l hl) (fun n hn => hn) (fun n o ho => by have hk := update_known ho; exact hk)
    | del id nicks =>
      intro id' l hl
      unfold monHear monStep at hl ⊢
      dsimp only at hl ⊢
      cases hg : GoMap.get s.st.clients id with
      | none =>
        rw [hg] at hl
        simp only [Option.isNone_none, if_true] at hl ⊢
        exact h id' l hl
      | some l0 =>
        rw [hg] at hl
        simp only [Option.isNone_some, Bool.false_eq_true, if_false] at hl ⊢
        rw [update_clients, mget_mset] at hl
        by_cases hid : id = id'
        · subst hid
          rw [if_pos rfl] at hl
          cases hl
          have hlo : s.st.listOf id = l0 := by unfold MonState.listOf; rw [hg]; rfl
          rw [hlo]
          refine told_weaken (h id l0 hg) ?_ (fun n o ho => by have hk := update_known ho; exact hk)
          exact del_sub nicks l0
        · rw [if_neg hid] at hl
          exact told_weaken (h id' l hl) (fun n hn => hn) (fun n o ho => by have hk := update_known ho; exact hk)
    | clear id =>
      intro id' l hl
      unfold monHear monStep at hl ⊢
      dsimp only at hl ⊢
      cases hg : GoMap.get s.st.clients id with
      | none =>
        rw [hg] at hl
        simp only [Option.isNone_none, if_true] at hl ⊢
        exact h id' l hl
      | some l0 =>
        rw [hg] at hl
        simp only [Option.isNone_some, Bool.false_eq_true, if_false] at hl ⊢
        rw [update_clients, mget_mset] at hl
        by_cases hid : id = id'
        · subst hid
          rw [if_pos rfl] at hl
          cases hl
          intro n hn
          cases hn
        · rw [if_neg hid] at hl
          exact told_weaken (h id' l hl) (fun n hn => hn) (fun n o ho => by have hk := update_known ho; exact hk)
    | reconnect =>
      intro id' l hl
      unfold monHear monStep at hl ⊢
      dsimp only at hl ⊢
      rw [update_clients] at hl
      refine told_weaken (h id' l hl) (fun n hn => hn) (fun n o ho => ?_)
      have := update_known ho
      cases this
  | reply ns o =>
    intro id l hl n hn
    have h0 := h id l hl
    have hlo : s.st.listOf id = l := by
      unfold MonState.listOf
      have : GoMap.get s.st.clients id = some l := hl
      rw [this]; rfl
    show (n = serviceNickCM → lastStatus n (s.heard id ++ monForward (s.st.listOf id) ns o) = some true) ∧
      (n ≠ serviceNickCM → ∀ o', GoMap.get (ns.foldl (fun m n => GoMap.set m n o) s.st.monitored) n = some o' →
        lastStatus n (s.heard id ++ monForward (s.st.listOf id) ns o) = some o')
    rw [hlo, last_append, last_forward]
    refine ⟨fun e => ?_, fun hs o' ho' => ?_⟩
    · rw [if_neg (fun hc => hserv ns o rfl (e ▸ hc.1))]
      simpa using (h0 n hn).1 e
    · rw [reply_get] at ho'
      by_cases hns : n ∈ ns
      · rw [if_pos hns] at ho'
        rw [if_pos ⟨hns, hn⟩]
        simpa using ho'
      · rw [if_neg hns] at ho'
        rw [if_neg (fun hc => hns hc.1)]
        simpa using (h0 n hn).2 hs o' ho'
  | nick n d =>
    intro id l hl
    exact told_weaken (h id l hl) (fun n hn => hn) (fun n o ho => by have hk := update_known ho; exact hk)

/-! ## C24: theorems -/

/-- C24: whatever the clients and the server send, in whatever order and with whatever new connections: the last thing a
client has been told about a nick of its list is what the server last said, if it has said something on this connection;
and the service of the bouncer is always online (as long as the server does not report on that nick). -/
theorem C24_told (s : MonHeard) (hs : s.st.clients = []) (es : List MonEvent)
    (hserv : ∀ ns o, MonEvent.reply ns o ∈ es → serviceNickCM ∉ ns)
    (id : Nat) (l : List Str) (hl : GoMap.get (es.foldl monHear s).st.clients id = some l) (n : Str) (hn : n ∈ l) :
    (n = serviceNickCM → lastStatus n ((es.foldl monHear s).heard id) = some true) ∧
    (n ≠ serviceNickCM → ∀ online, GoMap.get (es.foldl monHear s).st.monitored n = some online →
      lastStatus n ((es.foldl monHear s).heard id) = some online) := by
  have key : ∀ (es : List MonEvent) (s : MonHeard), AllTold s → (∀ ns o, MonEvent.reply ns o ∈ es → serviceNickCM ∉ ns) →
      AllTold (es.foldl monHear s) := by
    intro es
    induction es with
    | nil => intro s h _; exact h
    | cons e es ih =>
      intro s h hv
      exact ih _ (hear_step s e h (fun ns o he => hv ns o (he ▸ List.mem_cons_self)))
        (fun ns o ho => hv ns o (List.mem_cons_of_mem _ ho))
  exact key es s (fun id l hl => by rw [hs] at hl; cases hl) hserv id l hl n hn

/-- C24: a report of the server goes to exactly the clients that monitor the nick. -/
theorem C24_forwarded (l nicks : List Str) (online : Bool) (m : MonMsg) :
    m ∈ monForward l nicks online ↔ ∃ n ∈ nicks, n ∈ l ∧ m = .status n online := by
  unfold monForward
  rw [List.mem_map]
  constructor
  · rintro ⟨n, hn, rfl⟩
    have := List.mem_filter.1 hn
    exact ⟨n, this.1, by simpa using this.2, rfl⟩
  · rintro ⟨n, h1, h2, rfl⟩
    exact ⟨n, List.mem_filter.2 ⟨h1, by simpa using h2⟩, rfl⟩

/-- C24: a nick is added to the list exactly if there is room for it, and the client is told about each one that is
refused. -/
theorem C24_full (monitored : GoMap Str Bool) (l : List Str) (n : Str) :
    (l.length < 1000 → n ∈ (monAdd l n).1 ∧ .full n ∉ monAddTell monitored l [n]) ∧
    (1000 ≤ l.length → (monAdd l n).1 = l ∧ monAddTell monitored l [n] = [.full n]) := by
  constructor
  · intro h
    have hl : ¬ (monitorLimit ≤ l.length) := by unfold monitorLimit; omega
    constructor
    · unfold monAdd
      rw [if_neg hl]
      dsimp only
      split
      · assumption
      · exact List.mem_append_right _ (List.mem_singleton.2 rfl)
    · unfold monAddTell monAdd
      rw [if_neg hl]
      simp only [Bool.true_eq_false, if_false]
      rw [monAddTell, List.append_nil]
      split
      · simp
      · split <;> simp
  · intro h
    have hl : monitorLimit ≤ l.length := h
    unfold monAddTell monAdd
    rw [if_pos hl]
    exact ⟨rfl, by simp [monAddTell]⟩

/-- C24: `MONITOR L` lists the nicks of the client, `MONITOR S` tells the status of each, as the server last said. -/
theorem C24_listed (st : MonState) (l : List Str) :
    (∀ n, .listed n ∈ monListTell l ↔ n ∈ l) ∧ (monListTell l).getLast? = some .listEnd ∧
    (∀ n o, n ≠ serviceNickCM → GoMap.get st.monitored n = some o → n ∈ l → .status n o ∈ monStatusTell st l) ∧
    (∀ n o, .status n o ∈ monStatusTell st l → n ∈ l) := by
  refine ⟨fun n => ?_, ?_, fun n o hs hg hl => ?_, fun n o h => ?_⟩
  · unfold monListTell; simp
  · unfold monListTell; simp
  · unfold monStatusTell
    exact List.mem_map.2 ⟨n, hl, by rw [if_neg hs, hg]; rfl⟩
  · unfold monStatusTell at h
    obtain ⟨x, hx, e⟩ := List.mem_map.1 h
    cases e
    exact hx

/-- C24, violated: a client that asks for the status of a nick the server has not reported on yet (because the nick was
just added, or the connection to the server is new) is told that it is offline. -/
theorem C24_unknown_violated :
    ∃ (es : List MonEvent) (s : MonHeard), s = es.foldl monHear ⟨⟨[], [], b!"me", b!"me", true⟩, fun _ => []⟩ ∧
      GoMap.get s.st.clients 1 = some [b!"bob"] ∧ lastStatus b!"bob" (s.heard 1) = some true ∧
      GoMap.get s.st.monitored b!"bob" = none ∧ monStatusTell s.st [b!"bob"] = [.status b!"bob" false] :=
  ⟨[.client (.connect 1), .client (.add 1 [b!"bob"]), .reply [b!"bob"] true, .client .reconnect], _, rfl,
    by decide, by decide, by decide, by decide⟩

example :
    let s := [MonEvent.client (.connect 1), .client (.connect 2), .client (.add 1 [b!"bob", b!"bouncerserv"]),
      .reply [b!"bob"] true, .client (.add 2 [b!"bob", b!"amy"]), .reply [b!"amy", b!"bob"] false].foldl monHear
      ⟨⟨[], [], b!"me", b!"me", true⟩, fun _ => []⟩
    s.heard 1 = [.status b!"bouncerserv" true, .status b!"bob" true, .status b!"bob" false] ∧
    s.heard 2 = [.status b!"bob" true, .status b!"amy" false, .status b!"bob" false] ∧
    GoMap.get s.st.monitored b!"bob" = some false := by decide

end Verif.Props
