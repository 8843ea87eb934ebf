import Verif.Proof.Passing

/-! # What the server says is passed on (C119) -/

namespace Verif.Props
open Verif.Model Verif.Spec Verif.Proof

private theorem hears_from (id : Nat) (notify : Bool) (clients : List PsClient) :
    ∀ (ops past : List PsOp) (c₀ : PsClient), c₀ ∈ (psRun clients past).clients → c₀.id = id → c₀.inviteNotify = notify →
      (∀ op ∈ ops, op ≠ .gone id ∧ ∀ n, op ≠ .login id n) →
      ∃ h, IsToHear id notify past ops h ∧
        { c₀ with heard := c₀.heard ++ h } ∈ (psRun clients (past ++ ops)).clients := by
  intro ops
  induction ops with
  | nil => intro past c₀ h1 _ _ _; exact ⟨[], .nil past, by simpa using h1⟩
  | cons op ops ih =>
    intro past c₀ h1 h2 h3 h4
    have hr : psRun clients (past ++ [op]) = (psStep (psRun clients past) op).1 := by simp [psRun]
    have happ : past ++ op :: ops = (past ++ [op]) ++ ops := by simp
    have h4' : ∀ op ∈ ops, op ≠ .gone id ∧ ∀ n, op ≠ .login id n := fun o ho => h4 o (by simp [ho])
    have h5 := h4 op (by simp)
    rw [happ]
    cases op with
    | login i n =>
      have : c₀ ∈ (psRun clients (past ++ [.login i n])).clients := by rw [hr]; simp [psStep, h1]
      obtain ⟨h, k1, k2⟩ := ih _ c₀ this h2 h3 h4'
      exact ⟨h, .login _ _ _ _ _ (fun e => h5.2 n (by rw [e])) k1, k2⟩
    | gone i =>
      have hi : i ≠ id := fun e => h5.1 (by rw [e])
      have : c₀ ∈ (psRun clients (past ++ [.gone i])).clients := by
        rw [hr]; simp only [psStep, List.mem_filter, decide_eq_true_eq]
        exact ⟨h1, by rw [h2]; exact fun e => hi e.symm⟩
      obtain ⟨h, k1, k2⟩ := ih _ c₀ this h2 h3 h4'
      exact ⟨h, .gone _ _ _ _ hi k1, k2⟩
    | msg env lbl m =>
      have hs := (psStep_msg (psInv_run clients past) env lbl m).1
      have hm : psTell past env lbl m c₀ ∈ (psRun clients (past ++ [.msg env lbl m])).clients := by
        rw [hr, hs]; exact List.mem_map_of_mem h1
      by_cases hd : IsDue past env lbl m id notify
      · have e : psTell past env lbl m c₀ = { c₀ with heard := c₀.heard ++ [m] } := by
          unfold psTell; rw [if_pos (by rw [h2, h3]; exact hd)]
        rw [e] at hm
        obtain ⟨h, k1, k2⟩ := ih _ _ hm h2 h3 h4'
        exact ⟨m :: h, .due _ _ _ _ _ _ hd k1, by simpa using k2⟩
      · have e : psTell past env lbl m c₀ = c₀ := by
          unfold psTell; rw [if_neg (by rw [h2, h3]; exact hd)]
        rw [e] at hm
        obtain ⟨h, k1, k2⟩ := ih _ _ hm h2 h3 h4'
        exact ⟨h, .kept _ _ _ _ _ _ hd k1, k2⟩

/-- **C119** A client that logs in hears, for as long as it is there, exactly the messages due to it, each once, unchanged
and in the order in which the server said them. -/
theorem C119_hears (before ops : List PsOp) (id : Nat) (notify : Bool)
    (hstay : ∀ op ∈ ops, op ≠ .gone id ∧ ∀ n, op ≠ .login id n) :
    ∃ h, IsToHear id notify (before ++ [.login id notify]) ops h ∧
      ⟨id, notify, h⟩ ∈ (psRun [] (before ++ [.login id notify] ++ ops)).clients := by
  have h1 : (⟨id, notify, []⟩ : PsClient) ∈ (psRun [] (before ++ [.login id notify])).clients := by simp [psRun, psStep]
  obtain ⟨h, k1, k2⟩ := hears_from id notify [] ops _ ⟨id, notify, []⟩ h1 rfl rfl hstay
  exact ⟨h, k1, by simpa using k2⟩

/-- What a client is to hear is determined by the history. -/
theorem C119_hears_unique (id : Nat) (notify : Bool) (past ops : List PsOp) (h h' : List Msg)
    (h1 : IsToHear id notify past ops h) (h2 : IsToHear id notify past ops h') : h = h' := by
  induction h1 generalizing h' with
  | nil => cases h2; rfl
  | due past env lbl m ops h d _ ih =>
    cases h2 with
    | due _ _ _ _ _ _ _ k => rw [ih _ k]
    | kept _ _ _ _ _ _ n _ => exact absurd d n
  | kept past env lbl m ops h d _ ih =>
    cases h2 with
    | due _ _ _ _ _ _ n _ => exact absurd n d
    | kept _ _ _ _ _ _ _ k => exact ih _ k
  | login past i n ops h _ _ ih =>
    cases h2 with
    | login _ _ _ _ _ _ k => exact ih _ k
  | gone past i ops h _ _ ih =>
    cases h2 with
    | gone _ _ _ _ _ k => exact ih _ k

/-- Nobody but the clients that logged in hears anything. -/
theorem C119_only_clients (ops : List PsOp) (c : PsClient) (hc : c ∈ (psRun [] ops).clients) :
    PsOp.login c.id c.inviteNotify ∈ ops := by
  induction ops using snocInd generalizing c with
  | nil => simp [psRun] at hc
  | snoc l op ih =>
    have hr : psRun [] (l ++ [op]) = (psStep (psRun [] l) op).1 := by simp [psRun]
    rw [hr] at hc
    cases op with
    | login i n =>
      simp only [psStep, List.mem_append, List.mem_singleton] at hc
      rcases hc with hc | rfl
      · simp [ih c hc]
      · simp
    | gone i =>
      simp only [psStep, List.mem_filter] at hc
      simp [ih c hc.1]
    | msg env lbl m =>
      rw [(psStep_msg (psInv_run [] l) env lbl m).1] at hc
      obtain ⟨c', h1, h2⟩ := List.mem_map.1 hc
      have : c.id = c'.id ∧ c.inviteNotify = c'.inviteNotify := by
        rw [← h2]; unfold psTell; split <;> exact ⟨rfl, rfl⟩
      rw [this.1, this.2]
      simp [ih c' h1]

/-- **C119** When the user is invited to a saved channel that the bouncer is not in, the bouncer goes there, with the name and
the key it was saved with, and says nothing else to the server. -/
theorem C119_calls_back (before : List PsOp) (env : PsEnv) (lbl : Nat) (m : Msg) (hcall : CallsBack env m)
    (hnames : ∀ c ∈ env.saved, c.1 ≠ []) :
    ∃ c ∈ env.saved, (∀ channel, m.params[1]? = some channel → SameTo env.cm c.1 channel) ∧
      (psStep (psRun [] before) (.msg env lbl m)).2.server = [joinLine c.1 c.2] := by
  obtain ⟨c, h1, h2, h3⟩ := (psStep_msg (psInv_run [] before) env lbl m).2.2.2.2.2 hcall
  exact ⟨c, h1, h3, by rw [h2]; exact joinLine_eq c.1 c.2 (hnames c h1)⟩

/-- Otherwise nothing is said to the server. -/
theorem C119_says_nothing (before : List PsOp) (env : PsEnv) (lbl : Nat) (m : Msg) (h : ¬CallsBack env m) :
    (psStep (psRun [] before) (.msg env lbl m)).2.server = [] :=
  (psStep_msg (psInv_run [] before) env lbl m).2.2.2.2.1 h

/-- **C119** Exactly the invitations of the user that the bouncer does not follow by itself are pushed. -/
theorem C119_pushed (before : List PsOp) (env : PsEnv) (lbl : Nat) (m : Msg) :
    ((psStep (psRun [] before) (.msg env lbl m)).2.push = [m] ↔ Invites env m ∧ ¬CallsBack env m) ∧
    ((psStep (psRun [] before) (.msg env lbl m)).2.push = [] ↔ ¬(Invites env m ∧ ¬CallsBack env m)) := by
  obtain ⟨_, _, h1, h2, _⟩ := psStep_msg (psInv_run [] before) env lbl m
  by_cases h : Invites env m ∧ ¬CallsBack env m
  · rw [h1 h]; simp [h]
  · rw [h2 h]; simp [h]

private def psEnv : PsEnv := ⟨.rfc1459, b!"ann", [b!"#in"], [(b!"#In", []), (b!"#Out", b!"key")]⟩

private def psGreeting : List PsOp :=
  [.msg psEnv 0 ⟨b!"001", [b!"ann", b!"hi"]⟩, .msg psEnv 0 ⟨b!"372", [b!"ann", b!"- hello"]⟩, .msg psEnv 0 ⟨b!"376", [b!"ann", b!"end"]⟩]

example : CallsBack psEnv ⟨b!"INVITE", [b!"ANN", b!"#OUT"]⟩ := by
  refine ⟨rfl, b!"ANN", b!"#OUT", [], rfl, ?_, ?_, (b!"#Out", b!"key"), by decide, ?_⟩
  · simp only [SameTo]; rw [← casemap_eq_iff]; decide
  · intro c hc; simp only [SameTo]; rw [← casemap_eq_iff]; revert c; decide
  · simp only [SameTo]; rw [← casemap_eq_iff]; decide

example : (psStep (psRun [] psGreeting) (.msg psEnv 0 ⟨b!"INVITE", [b!"ANN", b!"#OUT"]⟩)).2 = ⟨[⟨b!"JOIN", [b!"#Out", b!"key"]⟩], [], false⟩ := by
  decide +kernel

-- the greeting is not heard, what comes later is; labelled replies go to one client, invitations of others to those that want them
example : (psRun [] (psGreeting.take 1 ++ [.login 1 true, .login 2 false] ++ psGreeting.drop 1 ++
    [.msg psEnv 2 ⟨b!"372", [b!"ann", b!"- again"]⟩, .msg psEnv 0 ⟨b!"INVITE", [b!"bob", b!"#x"]⟩, .msg psEnv 0 ⟨b!"WALLOPS", [b!"x"]⟩])).clients =
    [⟨1, true, [⟨b!"INVITE", [b!"bob", b!"#x"]⟩, ⟨b!"WALLOPS", [b!"x"]⟩]⟩,
     ⟨2, false, [⟨b!"372", [b!"ann", b!"- again"]⟩, ⟨b!"WALLOPS", [b!"x"]⟩]⟩] := by decide +kernel

/-- **C119** *violated*: a client that asks for the message of the day while the server still greets gets no answer: the lines
of the reply, although labelled with the client, are taken for the greeting. -/
theorem C119_greeting_violated : ∃ (before : List PsOp) (env : PsEnv) (m : Msg) (id : Nat),
    WelcomeIn before ∧ m.command = b!"375" ∧ ⟨id, false, []⟩ ∈ (psRun [] before).clients ∧ id ≠ 0 ∧
    (psRun [] (before ++ [.msg env id m])).clients = (psRun [] before).clients := by
  refine ⟨psGreeting.take 1 ++ [.login 2 false], psEnv, ⟨b!"375", [b!"ann", b!"start"]⟩, 2, ?_, rfl, by decide +kernel, by decide, by decide +kernel⟩
  exact ⟨psEnv, 0, ⟨b!"001", [b!"ann", b!"hi"]⟩, by decide +kernel, rfl, by decide⟩

/-- **C119** *violated*: why the server closes the connection is not told to anybody. -/
theorem C119_error_violated (before : List PsOp) (env : PsEnv) (lbl : Nat) (m : Msg) (hm : m.command = b!"ERROR") :
    (psRun [] (before ++ [.msg env lbl m])).clients = (psRun [] before).clients := by
  have hr : psRun [] (before ++ [.msg env lbl m]) = (psStep (psRun [] before) (.msg env lbl m)).1 := by simp [psRun]
  rw [hr, (psStep_msg (psInv_run [] before) env lbl m).1]
  symm
  refine psTell_quiet _ (fun id n => ?_)
  rw [isDue_five (by rw [hm]; decide)]
  have e1 : m.command ≠ b!"341" := by rw [hm]; decide
  have e2 : m.command ≠ b!"AWAY" := by rw [hm]; decide
  have e3 : m.command ≠ b!"ACCOUNT" := by rw [hm]; decide
  have e4 : m.command ≠ b!"INVITE" := by rw [hm]; decide
  simp [e1, e2, e3, Invites, InvitesOther, e4]

/-- Before the server's welcome a message that cannot be taken ends the connection, afterwards none does. -/
theorem C119_fatal (before : List PsOp) (env : PsEnv) (lbl : Nat) (m : Msg) (hw : WelcomeIn before) :
    (psStep (psRun [] before) (.msg env lbl m)).2.fatal = false := by
  have hreg := (psInv_run [] before).welcome.2 hw
  have hi : (psInvite env (psRun [] before) m).2.fatal = false := by
    unfold psInvite
    split
    · simp only
      split
      · split <;> rfl
      · rfl
    · rfl
  simp only [psStep, psHandle]
  by_cases c0 : m.command ∈ psElsewhere
  · rw [if_pos c0]
    rfl
  rw [if_neg c0]
  by_cases c1 : m.command = b!"001"
  · rw [if_pos c1]
    by_cases d : m.params = []
    · rw [if_pos d]; simp only [Option.getD_some, hreg]; rfl
    · rw [if_neg d]; first | rfl | exact hi
  rw [if_neg c1]
  by_cases c2 : m.command = b!"422" ∨ m.command = b!"376"
  · rw [if_pos c2]
    by_cases d : (psRun [] before).gotMotd = false
    · rw [if_pos d]; simp only [Option.getD_some, hreg]; rfl
    · rw [if_neg d]; first | rfl | exact hi
  rw [if_neg c2]
  by_cases c3 : m.command = b!"INVITE"
  · rw [if_pos c3]
    by_cases d : m.params.length < 2
    · rw [if_pos d]; simp only [Option.getD_some, hreg]; rfl
    · rw [if_neg d]; first | rfl | exact hi
  rw [if_neg c3]
  by_cases c4 : m.command = b!"341"
  · rw [if_pos c4]
    by_cases d : m.params.length < 3
    · rw [if_pos d]; simp only [Option.getD_some, hreg]; rfl
    · rw [if_neg d]; first | rfl | exact hi
  rw [if_neg c4]
  by_cases c5 : m.command = b!"AWAY"
  · rw [if_pos c5]
    rfl
  rw [if_neg c5]
  by_cases c6 : m.command = b!"ACCOUNT"
  · rw [if_pos c6]
    by_cases d : m.params = []
    · rw [if_pos d]; simp only [Option.getD_some, hreg]; rfl
    · rw [if_neg d]; first | rfl | exact hi
  rw [if_neg c6]
  by_cases c7 : m.command ∈ [b!"ACK", b!"306", b!"305", b!"002", b!"003"]
  · rw [if_pos c7]
    rfl
  rw [if_neg c7]
  by_cases c8 : m.command ∈ psBurst
  · rw [if_pos c8]
    by_cases d : (psRun [] before).gotMotd = false
    · rw [if_pos d]; simp only [Option.getD_some, hreg]; rfl
    · rw [if_neg d]; first | rfl | exact hi
  rw [if_neg c8]
  by_cases c9 : m.command = b!"ERROR"
  · rw [if_pos c9]
    simp only [Option.getD_some, hreg]; rfl
  rw [if_neg c9]
  by_cases c10 : m.command ∈ [b!"464", b!"432", b!"436", b!"437", b!"463", b!"465"]
  · rw [if_pos c10]
    by_cases d : (psRun [] before).registered = false
    · rw [if_pos d]; simp only [Option.getD_some, hreg]; rfl
    · rw [if_neg d]; first | rfl | exact hi
  rw [if_neg c10]
  rfl

example : WelcomeIn psGreeting := ⟨psEnv, 0, ⟨b!"001", [b!"ann", b!"hi"]⟩, by decide +kernel, rfl, by decide⟩

/-- Before the server's welcome a refusal ends the connection. -/
theorem C119_refused (before : List PsOp) (env : PsEnv) (lbl : Nat) (m : Msg) (hw : ¬WelcomeIn before)
    (hm : m.command ∈ loginRefusals ∨ m.command = b!"ERROR") :
    (psStep (psRun [] before) (.msg env lbl m)).2.fatal = true := by
  have hreg : (psRun [] before).registered = false := by
    cases h : (psRun [] before).registered
    · rfl
    · exact absurd ((psInv_run [] before).welcome.1 h) hw
  obtain ⟨cmd, params⟩ := m
  simp only at hm
  have hc : cmd ∈ b!"ERROR" :: loginRefusals := by rcases hm with h | h <;> simp [h]
  have key : ∀ cmd ∈ b!"ERROR" :: loginRefusals, cmd ∉ psElsewhere ∧ cmd ≠ b!"001" ∧ ¬(cmd = b!"422" ∨ cmd = b!"376") ∧
      cmd ≠ b!"INVITE" ∧ cmd ≠ b!"341" ∧ cmd ≠ b!"AWAY" ∧ cmd ≠ b!"ACCOUNT" ∧
      cmd ∉ [b!"ACK", b!"306", b!"305", b!"002", b!"003"] ∧ cmd ∉ psBurst := by decide +kernel
  obtain ⟨a1, a2, a3, a4, a5, a6, a7, a8, a9⟩ := key cmd hc
  simp only [psStep, psHandle, if_neg a1, if_neg a2, if_neg a3, if_neg a4, if_neg a5, if_neg a6, if_neg a7, if_neg a8, if_neg a9]
  by_cases he : cmd = b!"ERROR"
  · rw [if_pos he]; simp [hreg]
  · rw [if_neg he, if_pos ((ps_refusals _).2 (hm.resolve_right he)), if_pos hreg]; simp [hreg]

example : ¬WelcomeIn [.login 1 true] := by
  rintro ⟨_, _, _, h, _⟩; simp at h

end Verif.Props
