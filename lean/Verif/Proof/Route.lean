import Verif.Spec.Route
import Verif.Proof.GoMap
import Verif.Proof.Util
import Mathlib.Data.List.Forall2

namespace Verif.Proof
open Verif.Model Verif.Spec

/-! ## The effect of a command -/

/-- One of the three. -/
inductive RtSingle (m : TMsg) : RtEffect → Prop where
  | reply (l : List Msg) (h : l ≠ []) : RtSingle m ⟨l, [], []⟩
  | send (m' : TMsg) (h : PartOf m m') : RtSingle m ⟨[], [m'], []⟩
  | queue : RtSingle m ⟨[], [], [m]⟩

theorem partOf_self (m : TMsg) : PartOf m m := ⟨rfl, Or.inl rfl⟩

theorem rtReply_one (m : TMsg) (x : Msg) (l : List Msg) : RtSingle m (rtReply (x :: l)) := .reply _ (by simp)

theorem rtPing_single (env : RtEnv) (c : RtClient) (m : TMsg) : RtSingle m (rtPing env c m) := by
  unfold rtPing
  split
  · exact rtReply_one ..
  · dsimp only
    split <;> exact rtReply_one ..

theorem rtMode_single {cm : CaseMapping} {c : RtClient} {uc : Option RtConn} {m : TMsg} (hm : m.command = b!"MODE")
    (ha : ∀ u, uc = some u → HasAnswers u.facts)
    (hk : ∀ u ch, uc = some u → u.facts.chan (m.params.headD []) = some ch → ch.modes ≠ none) : RtSingle m (rtMode cm c uc m) := by
  unfold rtMode
  split
  · exact rtReply_one ..
  · rename_i name rest hp
    dsimp only
    split
    · split
      · split
        · exact rtReply_one ..
        · exact .send m (partOf_self m)
      · exact rtReply_one ..
    · split
      · exact rtReply_one ..
      · rename_i u
        split
        · exact rtReply_one ..
        · split
          · rename_i hne
            refine .send _ ⟨hm.symm, Or.inl ?_⟩
            cases rest with
            | nil => exact absurd rfl hne
            | cons a t => rw [hp]; rfl
          · split
            · exact .send m (partOf_self m)
            · rename_i ch hch
              split
              · rename_i hmod
                exact absurd hmod (hk _ _ rfl (by rw [hp]; exact hch))
              · rename_i l hmod
                exact .reply l (((ha _ rfl) _ _ hch).2.2 l hmod)

theorem rtTopic_single {c : RtClient} {uc : Option RtConn} {m : TMsg} (hm : m.command = b!"TOPIC")
    (ha : ∀ u, uc = some u → HasAnswers u.facts) : RtSingle m (rtTopic c uc m) := by
  unfold rtTopic
  split
  · exact rtReply_one ..
  · rename_i name rest hp
    split
    · exact rtReply_one ..
    · split
      · exact .send _ ⟨hm.symm, Or.inr (Or.inr ⟨hm, by rw [hp]; rfl⟩)⟩
      · split
        · exact .send m (partOf_self m)
        · rename_i ch hch
          exact .reply _ (((ha _ rfl) _ _ hch).2.1)

theorem rtWho_single (env : RtEnv) (cm : CaseMapping) (c : RtClient) (uc : Option RtConn) (m : TMsg) :
    RtSingle m (rtWho env cm c uc m) := by
  unfold rtWho
  split
  · exact rtReply_one ..
  · dsimp only
    split
    · exact rtReply_one ..
    · split
      · exact rtReply_one ..
      · split
        · exact rtReply_one ..
        · split
          · exact rtReply_one ..
          · split
            · exact .reply _ (by simp)
            · exact .queue

theorem rtWhois_single (env : RtEnv) (cm : CaseMapping) (c : RtClient) (uc : Option RtConn) (m : TMsg) :
    RtSingle m (rtWhois env cm c uc m) := by
  unfold rtWhois
  split
  · exact rtReply_one ..
  · dsimp only
    split
    · exact .reply _ (by simp)
    · split
      · exact rtReply_one ..
      · split
        · exact rtReply_one ..
        · exact .queue

theorem rtRegister_single (uc : Option RtConn) (m : TMsg) : RtSingle m (rtRegister uc m) := by
  unfold rtRegister
  split
  · exact rtReply_one ..
  · split
    · split
      · exact .queue
      · exact rtReply_one ..
    · exact rtReply_one ..

theorem rtInfo_single (c : RtClient) (uc : Option RtConn) (m : TMsg) : RtSingle m (rtInfo c uc m) := by
  unfold rtInfo
  split
  · exact rtReply_one ..
  · exact rtReply_one ..
  · exact .send m (partOf_self m)

theorem rtDefault_single (c : RtClient) (uc : Option RtConn) (m : TMsg) : RtSingle m (rtDefault c uc m) := by
  unfold rtDefault
  split
  · exact rtReply_one ..
  · exact rtReply_one ..
  · exact .send m (partOf_self m)

theorem cut_free {x : Byte} {s : Str} (h : x ∉ s) : (cut x s).1 = s := by
  induction s with
  | nil => rfl
  | cons a s ih =>
    unfold cut
    rw [if_neg (fun e => h (by rw [e]; exact List.mem_cons_self))]
    dsimp only
    rw [ih (fun e => h (List.mem_cons_of_mem _ e))]

theorem rtHandle_single {env : RtEnv} {cm : CaseMapping} {c : RtClient} {uc : Option RtConn} {m : TMsg}
    (ha : ∀ u, uc = some u → HasAnswers u.facts)
    (hk : m.command = b!"MODE" → ∀ u ch, uc = some u → u.facts.chan (m.params.headD []) = some ch → ch.modes ≠ none)
    (hpong : m.command ≠ b!"PONG") (hnames : m.command ≠ b!"NAMES") (ho : m.command ∉ otherProperties) :
    RtSingle m (rtHandle env cm c uc m) := by
  unfold rtHandle
  by_cases h : m.command = b!"PING"
  · rw [if_pos h]; exact rtPing_single ..
  rw [if_neg h, if_neg hpong]; clear h
  by_cases h : m.command = b!"USER"
  · rw [if_pos h]; exact rtReply_one ..
  rw [if_neg h]; clear h
  by_cases h : m.command = b!"KICK" ∨ m.command = b!"INVITE"
  · rw [if_pos h]
    split
    · exact rtReply_one ..
    · exact .send m (partOf_self m)
  rw [if_neg h]; clear h
  by_cases h : m.command = b!"MODE"
  · rw [if_pos h]; exact rtMode_single h ha (hk h)
  rw [if_neg h]; clear h
  by_cases h : m.command = b!"TOPIC"
  · rw [if_pos h]; exact rtTopic_single h ha
  rw [if_neg h]; clear h
  by_cases h : m.command = b!"LIST"
  · rw [if_pos h]
    split
    · exact rtReply_one ..
    · exact .queue
  rw [if_neg h, if_neg hnames]; clear h
  by_cases h : m.command = b!"WHO"
  · rw [if_pos h]; exact rtWho_single ..
  rw [if_neg h]; clear h
  by_cases h : m.command = b!"WHOIS"
  · rw [if_pos h]; exact rtWhois_single ..
  rw [if_neg h]; clear h
  by_cases h : m.command = b!"REGISTER" ∨ m.command = b!"VERIFY"
  · rw [if_pos h]; exact rtRegister_single ..
  rw [if_neg h]; clear h
  by_cases h : m.command = b!"INFO"
  · rw [if_pos h]; exact rtInfo_single ..
  have he : m.command ∉ rtElsewhere := ho
  rw [if_neg h, if_neg he]
  exact rtDefault_single ..

/-! ## What is sent is a part of what was asked -/

theorem rtNames_fold (f : RtFacts) (e : RtEffect) (l : List Str) :
    l.foldl (rtNamesOne f) e =
      ⟨e.out ++ (l.filterMap f.chan).flatMap (·.names),
       e.send ++ (l.filter (fun n => (f.chan n).isNone)).map (fun n => ⟨[], none, b!"NAMES", [n]⟩), e.queue⟩ := by
  induction l generalizing e with
  | nil => simp
  | cons a l ih =>
    rw [List.foldl_cons, ih]
    unfold rtNamesOne
    cases h : f.chan a with
    | none => simp [List.filterMap_cons, h, List.filter_cons]
    | some ch => simp [List.filterMap_cons, h, List.filter_cons]

theorem rtMode_part {cm : CaseMapping} {c : RtClient} {uc : Option RtConn} {m : TMsg} (hm : m.command = b!"MODE") :
    ∀ m' ∈ (rtMode cm c uc m).send, PartOf m m' := by
  unfold rtMode
  split
  · exact fun _ h => by cases h
  · rename_i name rest hp
    dsimp only
    split
    · split
      · split
        · exact fun _ h => by cases h
        · intro m' h; rw [List.mem_singleton.1 h]; exact partOf_self m
      · exact fun _ h => by cases h
    · split
      · exact fun _ h => by cases h
      · split
        · exact fun _ h => by cases h
        · split
          · rename_i hne
            intro m' h
            rw [List.mem_singleton.1 h]
            refine ⟨hm.symm, Or.inl ?_⟩
            cases rest with
            | nil => exact absurd rfl hne
            | cons a t => rw [hp]; rfl
          · split
            · intro m' h; rw [List.mem_singleton.1 h]; exact partOf_self m
            · split
              · exact fun _ h => by cases h
              · exact fun _ h => by cases h

theorem rtTopic_part {c : RtClient} {uc : Option RtConn} {m : TMsg} (hm : m.command = b!"TOPIC") :
    ∀ m' ∈ (rtTopic c uc m).send, PartOf m m' := by
  unfold rtTopic
  split
  · exact fun _ h => by cases h
  · rename_i name rest hp
    split
    · exact fun _ h => by cases h
    · split
      · intro m' h
        rw [List.mem_singleton.1 h]
        exact ⟨hm.symm, Or.inr (Or.inr ⟨hm, by rw [hp]; rfl⟩)⟩
      · split
        · intro m' h; rw [List.mem_singleton.1 h]; exact partOf_self m
        · exact fun _ h => by cases h

theorem single_part {m : TMsg} {e : RtEffect} (h : RtSingle m e) : ∀ m' ∈ e.send, PartOf m m' := by
  cases h with
  | reply l h => exact fun _ h => by cases h
  | send m'' h => intro m' hm; rw [List.mem_singleton.1 hm]; exact h
  | queue => exact fun _ h => by cases h

theorem rtNames_part {c : RtClient} {uc : Option RtConn} {m : TMsg} (hm : m.command = b!"NAMES") :
    ∀ m' ∈ (rtNames c uc m).send, PartOf m m' := by
  unfold rtNames
  split
  · exact fun _ h => by cases h
  · split
    · exact fun _ h => by cases h
    · rename_i list rest hp
      rw [rtNames_fold]
      intro m' h
      simp only [List.nil_append, List.mem_map, List.mem_filter] at h
      obtain ⟨n, hn, rfl⟩ := h
      exact ⟨hm.symm, Or.inr (Or.inl ⟨hm, list, rest, n, hp, hn.1, rfl⟩)⟩

theorem rtHandle_part (env : RtEnv) (cm : CaseMapping) (c : RtClient) (uc : Option RtConn) (m : TMsg) :
    ∀ m' ∈ (rtHandle env cm c uc m).send, PartOf m m' := by
  unfold rtHandle
  by_cases h : m.command = b!"PING"
  · rw [if_pos h]; exact single_part (rtPing_single ..)
  rw [if_neg h]; clear h
  by_cases h : m.command = b!"PONG"
  · rw [if_pos h]; split <;> exact fun _ h => by cases h
  rw [if_neg h]; clear h
  by_cases h : m.command = b!"USER"
  · rw [if_pos h]; exact fun _ h => by cases h
  rw [if_neg h]; clear h
  by_cases h : m.command = b!"KICK" ∨ m.command = b!"INVITE"
  · rw [if_pos h]
    split
    · exact fun _ h => by cases h
    · intro m' h; rw [List.mem_singleton.1 h]; exact partOf_self m
  rw [if_neg h]; clear h
  by_cases h : m.command = b!"MODE"
  · rw [if_pos h]; exact rtMode_part h
  rw [if_neg h]; clear h
  by_cases h : m.command = b!"TOPIC"
  · rw [if_pos h]; exact rtTopic_part h
  rw [if_neg h]; clear h
  by_cases h : m.command = b!"LIST"
  · rw [if_pos h]; split <;> exact fun _ h => by cases h
  rw [if_neg h]; clear h
  by_cases h : m.command = b!"NAMES"
  · rw [if_pos h]; exact rtNames_part h
  rw [if_neg h]; clear h
  by_cases h : m.command = b!"WHO"
  · rw [if_pos h]; exact single_part (rtWho_single ..)
  rw [if_neg h]; clear h
  by_cases h : m.command = b!"WHOIS"
  · rw [if_pos h]; exact single_part (rtWhois_single ..)
  rw [if_neg h]; clear h
  by_cases h : m.command = b!"REGISTER" ∨ m.command = b!"VERIFY"
  · rw [if_pos h]; exact single_part (rtRegister_single ..)
  rw [if_neg h]; clear h
  by_cases h : m.command = b!"INFO"
  · rw [if_pos h]; exact single_part (rtInfo_single ..)
  rw [if_neg h]; clear h
  by_cases h : m.command ∈ rtElsewhere
  · rw [if_pos h]; exact fun _ h => by cases h
  rw [if_neg h]
  exact single_part (rtDefault_single ..)

/-- A command the bouncer does not know, or only passes on. -/
theorem rtHandle_plain {env : RtEnv} {cm : CaseMapping} {c : RtClient} {uc : Option RtConn} {m : TMsg}
    (h : m.command ∉ bouncerCommands) :
    rtHandle env cm c uc m =
      if m.command = b!"KICK" ∨ m.command = b!"INVITE" then
        (match uc with | none => rtReply [rtNoUpstream c m.command] | some _ => ⟨[], [m], []⟩)
      else if m.command = b!"INFO" then rtInfo c uc m else rtDefault c uc m := by
  simp only [bouncerCommands, List.mem_cons, List.not_mem_nil, or_false, not_or] at h
  obtain ⟨h01, h02, h03, h04, h05, h06, h07, h08, h09, h10, h11, h12, h13, h14, h15, h16, h17, h18, h19, h20, h21, h22,
    h23, h24, h25, h26, h27, h28, h29⟩ := h
  have he : m.command ∉ rtElsewhere := by
    simp only [rtElsewhere, List.mem_cons, List.not_mem_nil, or_false, not_or]
    exact ⟨h01, h05, h06, h07, h08, h15, h16, h17, h18, h21, h22, h23, h24, h25, h26, h27, h28⟩
  unfold rtHandle
  rw [if_neg h02, if_neg h03, if_neg h04, if_neg h09, if_neg h10, if_neg h11, if_neg h12, if_neg h13,
    if_neg h14, if_neg (not_or.2 ⟨h19, h20⟩), if_neg he]
  rfl

/-- Without a connection nothing is sent or put into a queue. -/
theorem rtHandle_none (env : RtEnv) (cm : CaseMapping) (c : RtClient) (m : TMsg) :
    (rtHandle env cm c none m).send = [] ∧ (rtHandle env cm c none m).queue = [] := by
  have hd : ∀ l, (rtReply l).send = [] ∧ (rtReply l).queue = [] := fun _ => ⟨rfl, rfl⟩
  have h1 : ∃ l, rtPing env c m = rtReply l := by
    unfold rtPing
    split
    · exact ⟨_, rfl⟩
    · dsimp only; split <;> exact ⟨_, rfl⟩
  have h2 : ∃ l, rtMode cm c none m = rtReply l := by
    unfold rtMode
    split
    · exact ⟨_, rfl⟩
    · dsimp only; (repeat' split) <;> exact ⟨_, rfl⟩
  have h3 : ∃ l, rtTopic c none m = rtReply l := by
    unfold rtTopic; dsimp only; (repeat' split) <;> exact ⟨_, rfl⟩
  have h4 : ∃ l, rtNames c none m = rtReply l := ⟨_, rfl⟩
  have h5 : ∃ l, rtWho env cm c none m = rtReply l := by
    unfold rtWho
    split
    · exact ⟨_, rfl⟩
    · dsimp only; (repeat' split) <;> exact ⟨_, rfl⟩
  have h6 : ∃ l, rtWhois env cm c none m = rtReply l := by
    unfold rtWhois
    split
    · exact ⟨_, rfl⟩
    · dsimp only; (repeat' split) <;> exact ⟨_, rfl⟩
  have h7 : ∃ l, rtRegister none m = rtReply l := by
    unfold rtRegister; dsimp only; (repeat' split) <;> exact ⟨_, rfl⟩
  have h8 : ∃ l, rtInfo c none m = rtReply l := by
    unfold rtInfo; cases c.net <;> exact ⟨_, rfl⟩
  have h9 : ∃ l, rtDefault c none m = rtReply l := by
    unfold rtDefault; cases c.net <;> exact ⟨_, rfl⟩
  have h : ∃ l, rtHandle env cm c none m = rtReply l := by
    unfold rtHandle
    dsimp only
    obtain ⟨l1, e1⟩ := h1; obtain ⟨l2, e2⟩ := h2; obtain ⟨l3, e3⟩ := h3; obtain ⟨l4, e4⟩ := h4; obtain ⟨l5, e5⟩ := h5
    obtain ⟨l6, e6⟩ := h6; obtain ⟨l7, e7⟩ := h7; obtain ⟨l8, e8⟩ := h8; obtain ⟨l9, e9⟩ := h9
    rw [e1, e2, e3, e4, e5, e6, e7, e8, e9]
    simp only [← apply_ite rtReply]
    exact ⟨_, rfl⟩
  obtain ⟨l, hl⟩ := h
  rw [hl]
  exact hd l

/-! ## The connection -/

theorem rtSend_facts (id : Nat) (uc : RtConn) (l : List TMsg) :
    (l.foldl (rtSend id) uc).facts = uc.facts ∧ (l.foldl (rtSend id) uc).queued = uc.queued := by
  induction l generalizing uc with
  | nil => exact ⟨rfl, rfl⟩
  | cons a l ih => rw [List.foldl_cons]; exact ih _

theorem rtSend_sent (id : Nat) (uc : RtConn) (l : List TMsg) :
    ∃ ys, (l.foldl (rtSend id) uc).sent = uc.sent ++ ys ∧
      List.Forall₂ (AsGiven uc.facts.messageTags uc.facts.labeled) l ys := by
  induction l generalizing uc with
  | nil => exact ⟨[], by simp, .nil⟩
  | cons a l ih =>
    obtain ⟨ys, h1, h2⟩ := ih (rtSend id uc a)
    rw [List.foldl_cons, h1]
    refine ⟨_ :: ys, by simp only [rtSend, List.append_assoc, List.singleton_append]; rfl, .cons ?_ h2⟩
    refine ⟨rfl, rfl, rfl, ?_, ?_, ?_⟩
    · intro ht k hk
      dsimp only
      rw [if_pos ht]
      split
      · rw [mget_mset, if_neg (fun h => hk h.symm)]
      · rfl
    · intro ht hl
      dsimp only
      rw [if_pos ht, if_neg (by rw [hl]; simp)]
    · intro ht
      dsimp only
      rw [if_neg (by rw [ht]; simp)]

/-! ## The states -/

theorem rtFind_map (l : List RtClient) (id : Nat) (f : RtClient → RtClient) (hf : ∀ c, (f c).id = c.id) :
    (l.map f).find? (fun c => c.id = id) = (l.find? (fun c => c.id = id)).map f := by
  induction l with
  | nil => rfl
  | cons a l ih =>
    rw [List.map_cons, List.find?_cons, List.find?_cons, ih]
    simp only [hf]
    split <;> simp

theorem rtStep_command {env : RtEnv} {cms : Nat → CaseMapping} {st : RtState} {id : Nat} {c : RtClient} {m : TMsg}
    (hc : rtClient st id = some c) (hq : m.command ≠ b!"QUIT") :
    rtStep env cms st (.command id m) =
      { conns := fun n => if c.net = some n then
          (st.conns n).map (rtApply id (rtHandle env (cms (c.net.getD 0)) c (rtUpstream st c) m)) else st.conns n
        clients := st.clients.map (fun d => if d.id = id then
          { d with out := d.out ++ if d.closing then [] else (rtHandle env (cms (c.net.getD 0)) c (rtUpstream st c) m).out } else d) } := by
  unfold rtStep
  dsimp only
  rw [show st.clients.find? (fun c => c.id = id) = some c from hc]
  dsimp only
  rw [if_neg hq]

theorem rtClient_id {st : RtState} {id : Nat} {c : RtClient} (hc : rtClient st id = some c) : c.id = id := by
  have := List.find?_some hc
  simpa using this

theorem rtHeard_command {env : RtEnv} {cms : Nat → CaseMapping} {st : RtState} {id : Nat} {c : RtClient} {m : TMsg}
    (hc : rtClient st id = some c) (hq : m.command ≠ b!"QUIT") (hcl : c.closing = false) :
    rtHeard (rtStep env cms st (.command id m)) id =
      rtHeard st id ++ (rtHandle env (cms (c.net.getD 0)) c (rtUpstream st c) m).out := by
  rw [rtStep_command hc hq]
  unfold rtHeard rtClient
  dsimp only
  rw [rtFind_map _ _ _ (fun c => by split <;> rfl), show st.clients.find? (fun c => c.id = id) = some c from hc]
  simp [rtClient_id hc, hcl]

theorem rtConn_command {env : RtEnv} {cms : Nat → CaseMapping} {st : RtState} {id n : Nat} {c : RtClient} {m : TMsg}
    {uc : RtConn} (hc : rtClient st id = some c) (hq : m.command ≠ b!"QUIT") (hn : c.net = some n) (hu : st.conns n = some uc) :
    (rtStep env cms st (.command id m)).conns n = some (rtApply id (rtHandle env (cms n) c (some uc) m) uc) := by
  rw [rtStep_command hc hq]
  dsimp only
  have hup : rtUpstream st c = some uc := by unfold rtUpstream; rw [hn]; exact hu
  rw [if_pos hn, hu, hup, hn]
  rfl

end Verif.Proof
