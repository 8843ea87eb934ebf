import Verif.Model.UserModes
import Verif.Props.Modes

/-! # C104: the modes of the user

A client learns the modes of the user from the server it talks to: RPL_UMODEIS lists them, MODE changes them. -/

namespace Verif.Props
open Verif.Model Verif.Spec Verif.Proof

/-! ## Specification -/

/-- The modes after the letters of a string; a string with a letter before any sign says nothing. -/
def withModes (held : Byte → Bool) (modes : Str) : Byte → Bool :=
  match signedLetters none modes with
  | none => held
  | some l => fun x => heldAfter (held x) x l

/-- No modes. -/
def noModes : Byte → Bool := fun _ => false

/-- What the server has said: the nick of the user, if they are connected, and the modes. -/
structure SaidModes where
  nick : Option Str
  held : Byte → Bool

/-- What one event adds: a new connection has no modes; MODE for the nick of the user changes them, RPL_UMODEIS lists them. -/
def saidStep (s : SaidModes) : UmOp → SaidModes
  | .connected nick => ⟨some nick, noModes⟩
  | .disconnected => ⟨none, noModes⟩
  | .nick nick => ⟨s.nick.map (fun _ => nick), s.held⟩
  | .mode name modes => if s.nick = some name then ⟨s.nick, withModes s.held modes⟩ else s
  | .umodeis _ modes => if s.nick.isSome then ⟨s.nick, withModes noModes (modes.getD [])⟩ else s
  | _ => s

/-- What the server has said, after a history. -/
def saidModes (ops : List UmOp) : SaidModes := ops.foldl saidStep ⟨none, noModes⟩

/-- What a client takes from one message. -/
def heardStep (held : Byte → Bool) (m : Msg) : Byte → Bool :=
  if m.command = b!"221" then withModes noModes ((m.params.drop 1).head?.getD [])
  else if m.command = b!"MODE" then withModes held ((m.params.drop 1).head?.getD [])
  else held

/-- The modes a client has, as far as it was told. -/
def heardModes (out : List Msg) : Byte → Bool := out.foldl heardStep noModes

/-- The mode strings of the server are ASCII, and RPL_UMODEIS starts with a sign. -/
def ModesOK (ops : List UmOp) : Prop :=
  (∀ name s, UmOp.mode name s ∈ ops → ∀ c ∈ s, c < 128) ∧
  ∀ name s, UmOp.umodeis name (some s) ∈ ops → (∀ c ∈ s, c < 128) ∧ signedLetters none s ≠ none

/-! ## Proofs -/

private theorem lastChange_map (l : List Byte) (x : Byte) :
    lastChange x (l.map (fun c => (c, true))) = if x ∈ l then some true else none := by
  induction l with
  | nil => rfl
  | cons c l ih =>
    rw [List.map_cons, lastChange, ih]
    by_cases h1 : x ∈ l
    · simp [h1]
    · by_cases h2 : c = x
      · simp [h1, h2]
      · simp [h1, h2, Ne.symm h2]

private theorem signed_plain (l : Str) (h : ∀ c ∈ l, c ≠ 43 ∧ c ≠ 45) :
    signedLetters (some true) l = some (l.map (fun c => (c, true))) := by
  induction l with
  | nil => rfl
  | cons c l ih =>
    rw [signedLetters_cons (h c (by simp)).1 (h c (by simp)).2, ih (fun d hd => h d (by simp [hd]))]
    rfl

private theorem with_plus (modes : Str) (h : ∀ c ∈ modes, c ≠ 43 ∧ c ≠ 45) (x : Byte) :
    withModes noModes (b!"+" ++ modes) x = modes.contains x := by
  have e : signedLetters none (b!"+" ++ modes) = some (modes.map (fun c => (c, true))) := by
    show signedLetters none (43 :: modes) = _
    rw [signedLetters]
    exact signed_plain modes h
  unfold withModes
  rw [e]
  dsimp only
  unfold heldAfter
  rw [lastChange_map]
  by_cases hx : x ∈ modes
  · simp [hx]
  · simp [hx, noModes]

private structure GoodModes (ms : UserModes) (held : Byte → Bool) : Prop where
  nodup : ms.Nodup
  plain : ∀ c ∈ ms, c ≠ 43 ∧ c ≠ 45
  eq : ∀ x, ms.has x = held x

private theorem applyLoop_plain (s : Str) (ms : UserModes) (pm : Option Bool) (ha : ∀ c ∈ s, c < 128)
    (h : ∀ c ∈ ms, c ≠ 43 ∧ c ≠ 45) : ∀ c ∈ (UserModes.applyLoop ms pm s).1, c ≠ 43 ∧ c ≠ 45 := by
  fun_induction UserModes.applyLoop ms pm s with
  | case1 ms pm => exact h
  | case2 ms pm s ih => exact ih (fun c hc => ha c (by simp [hc])) h
  | case3 ms pm s hc ih => exact ih (fun c hc => ha c (by simp [hc])) h
  | case4 ms c s h1 h2 ih =>
    refine ih (fun c hc => ha c (by simp [hc])) ?_
    intro d hd
    rcases (um_mem_add (ha c (by simp))).1 hd with hd | rfl
    · exact h d hd
    · exact ⟨h1, h2⟩
  | case5 ms c s h1 h2 ih =>
    refine ih (fun c hc => ha c (by simp [hc])) ?_
    intro d hd
    rw [um_del_eq_erase] at hd
    exact h d (List.mem_of_mem_erase hd)
  | case6 ms c s h1 h2 => exact h

private theorem good_apply {ms : UserModes} {held : Byte → Bool} (h : GoodModes ms held) (s : Str) (ha : ∀ c ∈ s, c < 128) :
    GoodModes (UserModes.apply ms s).1 (withModes held s) ∧
      ((UserModes.apply ms s).2 = false → withModes held s = held) ∧
      (signedLetters none s ≠ none → (UserModes.apply ms s).2 = true) := by
  cases hs : signedLetters none s with
  | none =>
    rw [C04_malformed ms s hs]
    have : withModes held s = held := by unfold withModes; rw [hs]
    rw [this]
    exact ⟨h, fun _ => rfl, fun h => absurd rfl h⟩
  | some l =>
    obtain ⟨h1, h2, h3⟩ := C04_apply ms h.nodup s l ha hs
    refine ⟨⟨h2, applyLoop_plain s ms none ha h.plain, fun x => ?_⟩, fun hf => ?_, fun _ => h1⟩
    · rw [h3, h.eq]
      unfold withModes
      rw [hs]
    · rw [h1] at hf; cases hf

private theorem good_nil : GoodModes [] noModes := ⟨List.nodup_nil, by simp, fun _ => rfl⟩

/-- The model of the connection and the specification agree. -/
private def ConnOK (conn : Option UmConn) (s : SaidModes) : Prop :=
  match conn with
  | none => s.nick = none
  | some uc => s.nick = some uc.nick ∧ GoodModes uc.modes s.held

private theorem modesOK_cons {o : UmOp} {ops : List UmOp} (h : ModesOK (o :: ops)) : ModesOK ops :=
  ⟨fun n s hm => h.1 n s (by simp [hm]), fun n s hm => h.2 n s (by simp [hm])⟩

private theorem modesOK_append {a b : List UmOp} (h : ModesOK (a ++ b)) : ModesOK a ∧ ModesOK b :=
  ⟨⟨fun n s hm => h.1 n s (by simp [hm]), fun n s hm => h.2 n s (by simp [hm])⟩,
    ⟨fun n s hm => h.1 n s (by simp [hm]), fun n s hm => h.2 n s (by simp [hm])⟩⟩

private theorem clientMode_conn (cm : CaseMapping) (st : UmState) (c : UmClient) (name : Str) (rest : List Str) :
    (umClientMode cm st c name rest).conn = st.conn := by
  unfold umClientMode
  dsimp only
  generalize (if c.network then cm else CaseMapping.ascii) = cm'
  split
  · rfl
  · split
    · split <;> rfl
    · rfl

private theorem conn_step (cm : CaseMapping) (st : UmState) (s : SaidModes) (h : ConnOK st.conn s) (o : UmOp)
    (ho : ModesOK [o]) : ConnOK (umStep cm st o).conn (saidStep s o) := by
  cases o with
  | connected nick => exact ⟨rfl, good_nil⟩
  | disconnected => exact rfl
  | nick nick =>
    unfold umStep saidStep
    cases hc : st.conn with
    | none =>
      rw [hc] at h
      have h : s.nick = none := h
      simp [ConnOK, h, hc]
    | some uc =>
      rw [hc] at h
      exact ⟨by simp [h.1], h.2⟩
  | mode name modes =>
    unfold umStep saidStep
    cases hc : st.conn with
    | none =>
      rw [hc] at h
      have h : s.nick = none := h
      simp [ConnOK, h, hc]
    | some uc =>
      rw [hc] at h
      dsimp only
      unfold umMode
      by_cases hn : name = uc.nick
      · subst hn
        rw [if_neg (by simp), if_pos h.1]
        have := (good_apply h.2 modes (ho.1 _ _ (List.mem_singleton.2 rfl))).1
        dsimp only
        split
        · exact ⟨h.1, this⟩
        · exact ⟨h.1, this⟩
      · rw [if_pos hn, if_neg (by rw [h.1]; simpa using Ne.symm hn), hc]
        exact h
  | umodeis name modes =>
    unfold umStep saidStep
    cases hc : st.conn with
    | none =>
      rw [hc] at h
      have h : s.nick = none := h
      simp [ConnOK, h, hc]
    | some uc =>
      rw [hc] at h
      dsimp only
      rw [if_pos (by rw [h.1]; rfl)]
      have ha : ∀ c ∈ modes.getD [], c < 128 := by
        cases modes with
        | none => simp
        | some m => exact (ho.2 _ _ (List.mem_singleton.2 rfl)).1
      have := (good_apply good_nil (modes.getD []) ha).1
      unfold umUmodeis
      dsimp only
      split
      · exact ⟨h.1, this⟩
      · exact ⟨h.1, this⟩
  | login num network =>
    unfold umStep
    dsimp only
    split <;> exact h
  | logout num => exact h
  | cMode num name rest =>
    unfold umStep
    dsimp only
    split
    · exact h
    · rw [clientMode_conn]; exact h
  | setAdmin admin => exact h

private theorem conn_run (cm : CaseMapping) (ops : List UmOp) (st : UmState) (s : SaidModes) (h : ConnOK st.conn s)
    (ho : ModesOK ops) : ConnOK (umRun cm st ops).conn (ops.foldl saidStep s) := by
  induction ops generalizing st s with
  | nil => exact h
  | cons o ops ih =>
    exact ih _ _ (conn_step cm st s h o ⟨fun n s hm => ho.1 n s (by simp at hm; simp [hm]), fun n s hm => ho.2 n s (by simp at hm; simp [hm])⟩) (modesOK_cons ho)

/-- What is known of a client: it is there, belongs to the network and, while connected, knows the modes. -/
private structure Knows (num : Nat) (st : UmState) (s : SaidModes) : Prop where
  there : ∃ c ∈ st.clients, c.num = num
  network : ∀ c ∈ st.clients, c.num = num → c.network = true
  heard : st.conn.isSome = true → ∀ c ∈ st.clients, c.num = num → ∀ x, heardModes c.out x = s.held x

private theorem heard_snoc (out : List Msg) (m : Msg) : heardModes (out ++ [m]) = heardStep (heardModes out) m := by
  unfold heardModes; rw [List.foldl_append]; rfl

private theorem with_ext {f g : Byte → Bool} (h : ∀ x, f x = g x) (s : Str) (x : Byte) : withModes f s x = withModes g s x := by
  rw [funext h]

private theorem knows_map {num : Nat} {st st' : UmState} {s s' : SaidModes} (h : Knows num st s) (f : UmClient → UmClient)
    (hcl : st'.clients = st.clients.map f) (hnum : ∀ c, (f c).num = c.num) (hnet : ∀ c, (f c).network = c.network)
    (hh : st'.conn.isSome = true → ∀ c ∈ st.clients, c.num = num → c.network = true → st.conn.isSome = true ∧
      ((∀ x, heardModes c.out x = s.held x) → ∀ x, heardModes (f c).out x = s'.held x)) : Knows num st' s' := by
  refine ⟨?_, ?_, ?_⟩
  · obtain ⟨c, hc, e⟩ := h.there
    exact ⟨f c, by rw [hcl]; exact List.mem_map_of_mem hc, by rw [hnum, e]⟩
  · intro c hc e
    rw [hcl] at hc
    obtain ⟨d, hd, rfl⟩ := List.mem_map.1 hc
    rw [hnet]
    exact h.network d hd (by rw [← hnum]; exact e)
  · intro hs c hc e
    rw [hcl] at hc
    obtain ⟨d, hd, rfl⟩ := List.mem_map.1 hc
    have hn : d.num = num := by rw [← hnum]; exact e
    obtain ⟨h1, h2⟩ := hh hs d hd hn (h.network d hd hn)
    exact h2 (h.heard h1 d hd hn)

private theorem knows_same {num : Nat} {st st' : UmState} {s : SaidModes} (h : Knows num st s)
    (hcl : st'.clients = st.clients) (hc : st'.conn.isSome = true → st.conn.isSome = true) : Knows num st' s :=
  ⟨by rw [hcl]; exact h.there, by rw [hcl]; exact h.network, fun hs => by rw [hcl]; exact h.heard (hc hs)⟩

private theorem knows_step (cm : CaseMapping) (num : Nat) (st : UmState) (s : SaidModes) (hc : ConnOK st.conn s)
    (h : Knows num st s) (o : UmOp) (ho : ModesOK [o]) (h1 : ∀ n, o ≠ .connected n) (h2 : o ≠ .logout num) :
    Knows num (umStep cm st o) (saidStep s o) := by
  cases o with
  | connected nick => exact absurd rfl (h1 nick)
  | disconnected => exact ⟨h.there, h.network, by intro hs; cases hs⟩
  | nick nick =>
    unfold umStep saidStep
    cases hcc : st.conn with
    | none => exact ⟨h.there, h.network, by dsimp only; rw [hcc]; intro hs; cases hs⟩
    | some uc =>
      refine knows_map h (fun c => if c.network then { c with nick := nick } else c) rfl (by intro c; split <;> rfl)
        (by intro c; split <;> rfl) ?_
      intro _ c _ _ hn
      refine ⟨by rw [hcc]; rfl, fun e => ?_⟩
      rw [if_pos hn]
      exact e
  | mode name modes =>
    unfold umStep saidStep
    cases hcc : st.conn with
    | none =>
      rw [hcc] at hc
      have hc : s.nick = none := hc
      dsimp only
      rw [if_neg (by rw [hc]; simp)]
      exact h
    | some uc =>
      rw [hcc] at hc
      dsimp only
      unfold umMode
      by_cases hn : name = uc.nick
      · subst hn
        rw [if_neg (by simp), if_pos hc.1]
        obtain ⟨g1, g2, g3⟩ := good_apply hc.2 modes (ho.1 _ _ (List.mem_singleton.2 rfl))
        dsimp only
        by_cases hr : (UserModes.apply uc.modes modes).2 = true
        · rw [if_pos hr]
          refine knows_map h (fun c => if c.network then { c with out := c.out ++ [⟨b!"MODE", [uc.nick, modes]⟩] } else c) rfl
            (by intro c; split <;> rfl) (by intro c; split <;> rfl) ?_
          intro _ c _ _ hnet
          refine ⟨by rw [hcc]; rfl, fun e x => ?_⟩
          rw [if_pos hnet]
          dsimp only
          rw [heard_snoc]
          show withModes (heardModes c.out) modes x = _
          exact with_ext e modes x
        · rw [if_neg hr, g2 (by simpa using hr)]
          refine knows_same h rfl (fun _ => by rw [hcc]; rfl)
      · rw [if_pos hn, if_neg (by rw [hc.1]; simpa using Ne.symm hn)]
        exact h
  | umodeis name modes =>
    unfold umStep saidStep
    cases hcc : st.conn with
    | none =>
      rw [hcc] at hc
      have hc : s.nick = none := hc
      dsimp only
      rw [if_neg (by rw [hc]; simp)]
      exact h
    | some uc =>
      rw [hcc] at hc
      dsimp only
      rw [if_pos (by rw [hc.1]; rfl)]
      have ha : (∀ c ∈ modes.getD [], c < 128) ∧ signedLetters none (modes.getD []) ≠ none := by
        cases modes with
        | none => exact ⟨by simp, by simp [signedLetters]⟩
        | some m => exact ho.2 _ _ (List.mem_singleton.2 rfl)
      obtain ⟨g1, g2, g3⟩ := good_apply good_nil (modes.getD []) ha.1
      unfold umUmodeis
      dsimp only
      rw [if_pos (g3 ha.2)]
      refine knows_map h (fun c => if c.network then { c with out := c.out ++ [⟨b!"221", name :: modes.toList⟩] } else c) rfl
        (by intro c; split <;> rfl) (by intro c; split <;> rfl) ?_
      intro _ c _ _ hnet
      refine ⟨by rw [hcc]; rfl, fun e x => ?_⟩
      rw [if_pos hnet]
      dsimp only
      rw [heard_snoc]
      cases modes <;> rfl
  | login num' network =>
    unfold umStep saidStep
    dsimp only
    split
    · exact h
    · rename_i hany
      have hne : num' ≠ num := by
        rintro rfl
        obtain ⟨c, hc, e⟩ := h.there
        exact hany (List.any_eq_true.2 ⟨c, hc, by simpa using e⟩)
      have hw : (umWelcome st num' network).num = num' := rfl
      refine ⟨?_, ?_, ?_⟩
      · obtain ⟨c, hc, e⟩ := h.there
        exact ⟨c, by simp [hc], e⟩
      · intro c hc e
        rcases List.mem_append.1 hc with hc | hc
        · exact h.network c hc e
        · rw [List.mem_singleton] at hc
          subst hc
          exact absurd (hw.symm.trans e) hne
      · intro hs c hc e
        rcases List.mem_append.1 hc with hc | hc
        · exact h.heard hs c hc e
        · rw [List.mem_singleton] at hc
          subst hc
          exact absurd (hw.symm.trans e) hne
  | logout num' =>
    have hne : num' ≠ num := by rintro rfl; exact h2 rfl
    unfold umStep saidStep
    dsimp only
    refine ⟨?_, ?_, ?_⟩
    · obtain ⟨c, hc, e⟩ := h.there
      exact ⟨c, List.mem_filter.2 ⟨hc, by simp [e, Ne.symm hne]⟩, e⟩
    · intro c hc e; exact h.network c (List.mem_filter.1 hc).1 e
    · intro hs c hc e; exact h.heard hs c (List.mem_filter.1 hc).1 e
  | cMode num' name rest =>
    unfold umStep saidStep
    dsimp only
    split
    · exact h
    · rename_i c hf
      have hcm := List.mem_of_find?_eq_some hf
      have hcn : c.num = num' := by have := List.find?_some hf; simpa using this
      unfold umClientMode
      dsimp only
      generalize (if c.network then cm else CaseMapping.ascii) = cm'
      split
      · exact h
      · split
        · split
          · exact h
          · exact knows_same h rfl (fun hs => hs)
        · refine knows_map h (fun d => if d.num = c.num then { d with out := d.out ++ [⟨b!"221", [d.nick, b!"+" ++ (match umUpstream st c with | some uc => uc.modes | none => [])]⟩] } else d) rfl
            (by intro c; split <;> rfl) (by intro c; split <;> rfl) ?_
          intro hs d hd hdn hnet
          have hs : st.conn.isSome = true := hs
          refine ⟨hs, fun e x => ?_⟩
          by_cases hdc : d.num = c.num
          · rw [if_pos hdc]
            dsimp only
            rw [heard_snoc]
            have hcnet : c.network = true := h.network c hcm (hdc ▸ hdn)
            obtain ⟨uc, huc⟩ := Option.isSome_iff_exists.1 hs
            rw [huc] at hc
            have hup : umUpstream st c = some uc := by unfold umUpstream; rw [if_pos hcnet, huc]
            rw [hup]
            show withModes noModes (b!"+" ++ uc.modes) x = _
            rw [with_plus _ hc.2.plain]
            exact hc.2.eq x
          · rw [if_neg hdc]
            exact e x
  | setAdmin admin => exact knows_same h rfl (fun hs => hs)

private theorem knows_run (cm : CaseMapping) (num : Nat) (ops : List UmOp) (st : UmState) (s : SaidModes)
    (hc : ConnOK st.conn s) (h : Knows num st s) (ho : ModesOK ops) (h1 : ∀ n, UmOp.connected n ∉ ops)
    (h2 : UmOp.logout num ∉ ops) : Knows num (umRun cm st ops) (ops.foldl saidStep s) := by
  induction ops generalizing st s with
  | nil => exact h
  | cons o ops ih =>
    have ho' : ModesOK [o] :=
      ⟨fun n s hm => ho.1 n s (by simp at hm; simp [hm]), fun n s hm => ho.2 n s (by simp at hm; simp [hm])⟩
    exact ih _ _ (conn_step cm st s hc o ho')
      (knows_step cm num st s hc h o ho' (fun n e => h1 n (by simp [e])) (fun e => h2 (by simp [e])))
      (modesOK_cons ho) (fun n hm => h1 n (by simp [hm])) (fun hm => h2 (by simp [hm]))

private theorem run_append (cm : CaseMapping) (st : UmState) (a b : List UmOp) :
    umRun cm st (a ++ b) = umRun cm (umRun cm st a) b := by unfold umRun; rw [List.foldl_append]

private theorem said_append (a b : List UmOp) : saidModes (a ++ b) = b.foldl saidStep (saidModes a) := by
  unfold saidModes; rw [List.foldl_append]

private theorem knows_login (cm : CaseMapping) (num : Nat) (st : UmState) (s : SaidModes) (hc : ConnOK st.conn s)
    (hnew : ∀ c ∈ st.clients, c.num ≠ num) : Knows num (umStep cm st (.login num true)) s := by
  have hany : st.clients.any (fun c => decide (c.num = num)) = false := by
    rw [List.any_eq_false]
    intro c hc
    simpa using hnew c hc
  have e : umStep cm st (.login num true) = { st with clients := st.clients ++ [umWelcome st num true] } := by
    unfold umStep
    dsimp only
    rw [hany]
    rfl
  rw [e]
  refine ⟨⟨umWelcome st num true, by simp, rfl⟩, ?_, ?_⟩
  · intro c hcl en
    rcases List.mem_append.1 hcl with hcl | hcl
    · exact absurd en (hnew c hcl)
    · rw [List.mem_singleton] at hcl
      subst hcl
      rfl
  · intro hs c hcl en x
    rcases List.mem_append.1 hcl with hcl | hcl
    · exact absurd en (hnew c hcl)
    · rw [List.mem_singleton] at hcl
      subst hcl
      obtain ⟨uc, huc⟩ := Option.isSome_iff_exists.1 hs
      have huc : st.conn = some uc := huc
      rw [huc] at hc
      have ho : (umWelcome st num true).out = [⟨b!"221", [uc.nick, b!"+" ++ uc.modes]⟩] := by
        unfold umWelcome umUpstream
        simp only [if_true, huc, Bool.not_true, Bool.false_and]
        rfl
      rw [ho]
      show withModes noModes (b!"+" ++ uc.modes) x = _
      rw [with_plus _ hc.2.plain]
      exact hc.2.eq x

/-! ## Theorems -/

/-- A client of the network that has logged in knows the modes of the user for as long as the connection with the server
lasts: what it was told adds up to what the server has said.  Missing: after the bouncer has connected again
(`C104_reconnect_violated`), mode strings no server sends. -/
theorem C104_known_partial (cm : CaseMapping) (username wantNick : Str) (admin : Bool) (ops1 ops2 : List UmOp) (num : Nat)
    (hok : ModesOK (ops1 ++ UmOp.login num true :: ops2))
    (hnew : ∀ c ∈ (umRun cm (umStart username wantNick admin) ops1).clients, c.num ≠ num)
    (h1 : ∀ n, UmOp.connected n ∉ ops2) (h2 : UmOp.logout num ∉ ops2) :
    let st := umRun cm (umStart username wantNick admin) (ops1 ++ UmOp.login num true :: ops2)
    ∃ c ∈ st.clients, c.num = num ∧ (st.conn.isSome = true →
      ∀ letter, heardModes c.out letter = (saidModes (ops1 ++ UmOp.login num true :: ops2)).held letter) := by
  intro st
  obtain ⟨ho1, ho2⟩ := modesOK_append hok
  have hc := conn_run cm ops1 (umStart username wantNick admin) ⟨none, noModes⟩ rfl ho1
  have hk := knows_login cm num _ _ hc hnew
  have hc' := conn_step cm _ _ hc (.login num true) ⟨by simp, by simp⟩
  have hr := knows_run cm num ops2 _ _ hc' hk (modesOK_cons ho2) h1 h2
  have e1 : st = umRun cm (umStep cm (umRun cm (umStart username wantNick admin) ops1) (.login num true)) ops2 := by
    show umRun cm _ (ops1 ++ _) = _
    rw [run_append]
    rfl
  rw [e1, said_append]
  obtain ⟨c, hcl, en⟩ := hr.there
  exact ⟨c, hcl, en, fun hs x => hr.heard hs c hcl en x⟩

/-- A client of the network that asks for its modes is told those the server has said, under its own nick; a client of
the bouncer, or one whose network is not connected, is told that there are none. -/
theorem C104_asked (cm : CaseMapping) (username wantNick : Str) (admin : Bool) (ops : List UmOp) (hok : ModesOK ops)
    (c : UmClient) (name : Str) (rest : List Str)
    (hc : (umRun cm (umStart username wantNick admin) ops).clients.find? (fun d => d.num = c.num) = some c)
    (hname : casemap (if c.network then cm else .ascii) name = casemap (if c.network then cm else .ascii) c.nick)
    (hrest : rest.head?.getD [] = []) :
    ∃ modes : Str, { c with out := c.out ++ [⟨b!"221", [c.nick, b!"+" ++ modes]⟩] } ∈
        (umStep cm (umRun cm (umStart username wantNick admin) ops) (.cMode c.num name rest)).clients ∧
      (c.network = true → (umRun cm (umStart username wantNick admin) ops).conn.isSome = true →
        modes.Nodup ∧ ∀ letter, letter ∈ modes ↔ (saidModes ops).held letter = true) ∧
      (c.network = false ∨ (umRun cm (umStart username wantNick admin) ops).conn = none → modes = []) := by
  have hcc := conn_run cm ops (umStart username wantNick admin) ⟨none, noModes⟩ rfl hok
  refine ⟨match umUpstream (umRun cm (umStart username wantNick admin) ops) c with | some uc => uc.modes | none => [], ?_, ?_, ?_⟩
  · unfold umStep
    simp only [hc]
    unfold umClientMode
    simp only [hname, ne_eq, not_true_eq_false, if_false, hrest]
    refine List.mem_map.2 ⟨c, List.mem_of_find?_eq_some hc, ?_⟩
    rw [if_pos rfl]
    cases umUpstream (umRun cm (umStart username wantNick admin) ops) c <;> rfl
  · intro hn hs
    obtain ⟨uc, huc⟩ := Option.isSome_iff_exists.1 hs
    rw [huc] at hcc
    have hup : umUpstream (umRun cm (umStart username wantNick admin) ops) c = some uc := by
      unfold umUpstream; rw [if_pos hn, huc]
    rw [hup]
    refine ⟨hcc.2.nodup, fun x => ?_⟩
    rw [show (saidModes ops).held x = UserModes.has uc.modes x from (hcc.2.eq x).symm]
    unfold UserModes.has
    simp
  · intro h
    have hup : umUpstream (umRun cm (umStart username wantNick admin) ops) c = none := by
      unfold umUpstream
      rcases h with h | h
      · rw [h]; rfl
      · rw [h]; split <;> rfl
    rw [hup]

/-- A client that changes the modes of the user passes this on to the server, in its own words, and nothing else happens:
the modes change when the server says so. -/
theorem C104_change (cm : CaseMapping) (st : UmState) (uc : UmConn) (hconn : st.conn = some uc) (c : UmClient)
    (hnet : c.network = true) (hc : st.clients.find? (fun d => d.num = c.num) = some c) (name modes : Str) (rest : List Str)
    (hname : casemap cm name = casemap cm c.nick) (hm : modes ≠ []) :
    umStep cm st (.cMode c.num name (modes :: rest)) =
      { st with sent := st.sent ++ [(c.num, ⟨b!"MODE", name :: modes :: rest⟩)] } := by
  unfold umStep
  simp only [hc]
  unfold umClientMode umUpstream
  simp [hname, hnet, hm, hconn]

/-- A client connected before the bouncer lost its server and connected again is not told that the modes are gone. -/
theorem C104_reconnect_violated : ∃ (ops : List UmOp) (c : UmClient), ModesOK ops ∧
    (umRun .rfc1459 (umStart b!"al" b!"al" false) ops).clients = [c] ∧ c.network = true ∧
    (umRun .rfc1459 (umStart b!"al" b!"al" false) ops).conn.isSome = true ∧
    heardModes c.out 111 = true ∧ (saidModes ops).held 111 = false := by
  refine ⟨[.connected b!"al", .login 1 true, .mode b!"al" b!"+o", .disconnected, .connected b!"al"],
    ⟨1, true, b!"al", [⟨b!"221", [b!"al", b!"+"]⟩, ⟨b!"MODE", [b!"al", b!"+o"]⟩]⟩, ⟨?_, ?_⟩, ?_⟩
  · intro n s h
    simp only [List.mem_cons, UmOp.mode.injEq, List.not_mem_nil, reduceCtorEq, or_false, false_or] at h
    obtain ⟨-, rfl⟩ := h
    decide
  · intro n s h; simp at h
  · decide

/-- On the connection to the bouncer, exactly the administrators are told that they are operators when they log in, and
nobody is told of another mode. -/
theorem C104_bouncer (cm : CaseMapping) (st : UmState) (num : Nat) (hnew : ∀ c ∈ st.clients, c.num ≠ num) :
    ∃ c ∈ (umStep cm st (.login num false)).clients, c.num = num ∧ c.network = false ∧ c.nick = st.username ∧
      (∀ m ∈ c.out, m.params.head? = some st.username) ∧
      ∀ letter, heardModes c.out letter = true ↔ letter = 111 ∧ st.admin = true := by
  have hany : st.clients.any (fun c => decide (c.num = num)) = false := by
    rw [List.any_eq_false]
    intro c hc
    simpa using hnew c hc
  refine ⟨umWelcome st num false, ?_, rfl, rfl, rfl, ?_, ?_⟩
  · unfold umStep
    dsimp only
    rw [hany]
    simp
  · intro m hm
    unfold umWelcome at hm
    simp only [umUpstream] at hm
    cases ha : st.admin <;> simp [ha] at hm
    subst hm
    rfl
  · intro letter
    unfold umWelcome
    simp only [umUpstream]
    cases ha : st.admin
    · simp [heardModes, noModes]
    · simp [heardModes, heardStep, noModes, withModes, signedLetters, heldAfter, lastChange]
      constructor
      · intro h; split at h <;> simp_all
      · intro h; subst h; simp

/-- An administrator who connects to the bouncer is told that they are an operator, and when they ask that they are none. -/
theorem C104_operator_violated : ∃ (ops : List UmOp) (c : UmClient),
    (umRun .rfc1459 (umStart b!"al" b!"al" true) ops).clients = [c] ∧ c.network = false ∧
    (umRun .rfc1459 (umStart b!"al" b!"al" true) ops).admin = true ∧ heardModes (c.out.take 1) 111 = true ∧
    heardModes c.out 111 = false :=
  ⟨[.login 1 false, .cMode 1 b!"al" []], ⟨1, false, b!"al", [⟨b!"221", [b!"al", b!"+o"]⟩, ⟨b!"221", [b!"al", b!"+"]⟩]⟩, by decide⟩

/-- RPL_UMODEIS without a sign is taken to say that there are no modes, and the clients do not hear of it. -/
theorem C104_sign_violated : ∃ (ops : List UmOp) (c : UmClient) (uc : UmConn),
    (umRun .rfc1459 (umStart b!"al" b!"al" false) ops).clients = [c] ∧ c.network = true ∧
    (umRun .rfc1459 (umStart b!"al" b!"al" false) ops).conn = some uc ∧
    heardModes c.out 105 = true ∧ uc.modes = [] :=
  ⟨[.connected b!"al", .login 1 true, .mode b!"al" b!"+i", .umodeis b!"al" (some b!"i")],
    ⟨1, true, b!"al", [⟨b!"221", [b!"al", b!"+"]⟩, ⟨b!"MODE", [b!"al", b!"+i"]⟩]⟩, ⟨b!"al", []⟩, by decide⟩

private def umHist : List UmOp :=
  [.connected b!"al", .mode b!"al" b!"+iw", .login 1 false, .login 2 true, .mode b!"al" b!"-w+x", .mode b!"bo" b!"+z",
   .nick b!"al2", .umodeis b!"al2" (some b!"+ix"), .mode b!"al" b!"+o", .mode b!"al2" b!"+s"]

example : ModesOK umHist ∧
    ∃ c, (umRun .rfc1459 (umStart b!"al" b!"al" false) umHist).clients.find? (fun d => d.num = 2) = some c ∧
      c.network = true ∧ c.nick = b!"al2" ∧ heardModes c.out 115 = true ∧ heardModes c.out 119 = false ∧
      (saidModes umHist).held 115 = true ∧ (saidModes umHist).held 111 = false := by
  refine ⟨⟨?_, ?_⟩, ⟨2, true, b!"al2", [⟨b!"221", [b!"al", b!"+iw"]⟩, ⟨b!"MODE", [b!"al", b!"-w+x"]⟩,
    ⟨b!"221", [b!"al2", b!"+ix"]⟩, ⟨b!"MODE", [b!"al2", b!"+s"]⟩]⟩, by decide⟩
  · intro n s h
    simp only [umHist, List.mem_cons, UmOp.mode.injEq, List.not_mem_nil, reduceCtorEq, or_false, false_or] at h
    rcases h with ⟨-, rfl⟩ | ⟨-, rfl⟩ | ⟨-, rfl⟩ | ⟨-, rfl⟩ | ⟨-, rfl⟩ <;> decide
  · intro n s h
    simp only [umHist, List.mem_cons, UmOp.umodeis.injEq, List.not_mem_nil, reduceCtorEq, or_false, false_or, Option.some.injEq] at h
    obtain ⟨-, rfl⟩ := h
    decide

end Verif.Props
