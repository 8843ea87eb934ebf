import Verif.Props.NetView
import Verif.Props.ChanView
import Verif.Spec.Present
namespace Verif.Props
open Verif.Model Verif.Spec Verif.Proof

private theorem nvNotify_nums (st : NvState) (id : Nat) (attrs : List (Str × Str)) :
    (nvNotify st id attrs).clients.map (·.num) = st.clients.map (·.num) := by
  unfold nvNotify
  split
  · simp only [List.map_map]
    apply List.map_congr_left
    intro c _
    simp only [Function.comp, nvSend]
    split <;> rfl
  · rfl

private theorem nvDisconnected_nums (st : NvState) (obj : Nat) :
    (nvDisconnected st obj).clients.map (·.num) = st.clients.map (·.num) := by
  unfold nvDisconnected
  dsimp only
  split
  · rfl
  · rw [nvNotify_nums]; rfl

private theorem map_num_same {l : List NvClient} {f : NvClient → NvClient} (h : ∀ c, (f c).num = c.num) :
    (l.map f).map (·.num) = l.map (·.num) := by
  rw [List.map_map]
  exact List.map_congr_left fun c _ => h c

private theorem filter_num {l : List NvClient} {num : Nat} :
    (l.filter (fun c => decide (c.num ≠ num))).map (·.num) = (l.map (·.num)).filter (fun n => decide (n ≠ num)) := by
  induction l with
  | nil => rfl
  | cons c l ih =>
    simp only [List.filter_cons, List.map_cons]
    split
    · rw [List.map_cons, ih]
    · exact ih

/-- C76: the clients of the theorems above are all those that have logged in and not left. -/
theorem C76_present (lib : UrlLib) (u : NvUser) (recs : List NetRec) (next : Nat) (ops : List NvOp) :
    (nvRun lib (nvInit u recs next) ops).clients.map (·.num) = nvLoggedIn ops := by
  induction ops using snocInd with
  | nil => rfl
  | snoc ops op ih =>
    have e1 : nvRun lib (nvInit u recs next) (ops ++ [op]) = nvStep lib (nvRun lib (nvInit u recs next) ops) op := by
      simp [nvRun]
    rw [e1]
    generalize nvRun lib (nvInit u recs next) ops = st at ih
    unfold nvLoggedIn at ih ⊢
    rw [List.foldl_append, ← ih]
    simp only [List.foldl_cons, List.foldl_nil]
    cases op <;> simp only [nvStep]
    case create => rw [nvNotify_nums]
    case update r =>
      split
      · rfl
      · rw [nvNotify_nums]
        dsimp only
        split
        · exact nvDisconnected_nums _ _
        · rfl
    case delete id =>
      split
      · rfl
      · exact map_num_same fun c => by unfold nvSend; split <;> rfl
    case connected obj =>
      split
      · rfl
      · rw [nvNotify_nums]; rfl
    case disconnected obj => exact nvDisconnected_nums _ _
    case error obj text =>
      split
      · rfl
      · rw [nvNotify_nums]; rfl
    case login num notify => simp
    case logout num => exact filter_num
    case capReq num on => exact map_num_same fun c => by split <;> rfl
    case list num => exact map_num_same fun c => by split <;> rfl

private theorem vmap_num {l : List VcClient} {f : VcClient → VcClient} (h : ∀ c, (f c).num = c.num) :
    (l.map f).map (·.num) = l.map (·.num) := by
  rw [List.map_map]
  exact List.map_congr_left fun c _ => h c

private theorem send_num (c : VcClient) (m : VMsg) : (c.send m).num = c.num := by
  unfold VcClient.send; split <;> rfl

private theorem sendAll_num (ms : List VMsg) : ∀ (c : VcClient), (c.sendAll ms).num = c.num := by
  unfold VcClient.sendAll
  induction ms with
  | nil => intro c; rfl
  | cons m ms ih => intro c; rw [List.foldl_cons, ih, send_num]

private theorem updateNick_num (nick : Str) (c : VcClient) : (vcUpdateNick nick c).num = c.num := by
  unfold vcUpdateNick
  split
  · rfl
  · exact send_num _ _

private theorem forward_num (st : VcState) (dc : Nat) (m : VMsg) :
    (vcForward st dc m).clients.map (·.num) = st.clients.map (·.num) :=
  vmap_num fun c => by split; rfl; exact send_num _ _

private theorem produce_num (cm : CaseMapping) (st : VcState) (t : Str) (m : VMsg) :
    (vcProduce cm st t m).clients.map (·.num) = st.clients.map (·.num) := by
  unfold vcProduce
  split
  · rfl
  · exact forward_num _ _ _

private theorem joinLoop_num (cm : CaseMapping) (m : VMsg) : ∀ (names : List Str) (st : VcState) (conn : VcConn),
    (vcJoinLoop cm m names st conn).clients.map (·.num) = st.clients.map (·.num)
  | [], _, _ => rfl
  | name :: rest, st, conn => by
    unfold vcJoinLoop
    split
    · dsimp only
      rw [joinLoop_num cm m rest, produce_num]
    · split
      · dsimp only
        rw [joinLoop_num cm m rest, produce_num]
      · rfl

private theorem partLoop_num (cm : CaseMapping) (m : VMsg) : ∀ (names : List Str) (st : VcState) (conn : VcConn),
    (vcPartLoop cm m names st conn).clients.map (·.num) = st.clients.map (·.num)
  | [], _, _ => rfl
  | name :: rest, st, conn => by
    unfold vcPartLoop
    split
    · dsimp only
      rw [partLoop_num cm m rest, produce_num]
    · split
      · dsimp only
        rw [partLoop_num cm m rest, produce_num]
      · rfl

private theorem server_num {cm : CaseMapping} {avail : List Model.Membership} {st st' : VcState} {conn : VcConn} {m : VMsg}
    {dc : Nat} (h : vcServer cm avail st conn m dc = some st') : st'.clients.map (·.num) = st.clients.map (·.num) := by
  unfold vcServer at h
  split at h
  · cases h
    unfold vcNick
    split
    · dsimp only
      split
      · exact vmap_num (updateNick_num _)
      · exact forward_num _ _ _
    · rfl
  split at h
  · split at h <;> cases h
    · exact joinLoop_num _ _ _ _ _
    · rfl
  split at h
  · split at h <;> cases h
    · exact partLoop_num _ _ _ _ _
    · rfl
  split at h
  · cases h
    unfold vcKick
    split
    · split
      · exact produce_num _ _ _ _
      · split
        · exact produce_num _ _ _ _
        · rfl
    · rfl
  split at h
  · cases h
    unfold vcQuit
    dsimp only
    split
    · exact forward_num _ _ _
    · rfl
  split at h
  · cases h
    unfold vcTopicReply
    split
    · split
      · exact forward_num _ _ _
      · rfl
    · rfl
  split at h
  · cases h
    unfold vcTopic
    split
    · split
      · rfl
      · exact produce_num _ _ _ _
    · rfl
  split at h
  · unfold vcNamReply at h
    split at h
    · split at h
      · cases h; exact forward_num _ _ _
      · split at h <;> cases h <;> rfl
    · cases h; rfl
  split at h
  · cases h
    unfold vcEndOfNames
    split
    · split
      · exact forward_num _ _ _
      · split
        · rfl
        · dsimp only
          split
          · rfl
          · exact vmap_num fun c => sendAll_num _ c
    · rfl
  · cases h; rfl

private theorem detach_num (cm : CaseMapping) (st : VcState) (name : Str) (r : Str × Bool) :
    (vcDetach cm st name r).clients.map (·.num) = st.clients.map (·.num) := by
  unfold vcDetach
  split
  · rfl
  · exact vmap_num fun c => send_num _ _

private theorem attach_num {cm : CaseMapping} {st st' : VcState} {name : Str} {r : Str × Bool}
    (h : vcAttach cm st name r = some st') : st'.clients.map (·.num) = st.clients.map (·.num) := by
  unfold vcAttach at h
  split at h
  · cases h; rfl
  · split at h
    · cases h
    · cases h
      exact vmap_num fun c => sendAll_num _ c

private theorem vfilter_num {l : List VcClient} {num : Nat} :
    (l.filter (fun c => decide (c.num ≠ num))).map (·.num) = (l.map (·.num)).filter (fun n => decide (n ≠ num)) := by
  induction l with
  | nil => rfl
  | cons c l ih =>
    simp only [List.filter_cons, List.map_cons]
    split
    · rw [List.map_cons, ih]
    · exact ih

private theorem vcRun_snoc' (cm : CaseMapping) (avail : List Model.Membership) (op : VcOp) :
    ∀ (ops : List VcOp) (st : VcState),
      vcRun cm avail st (ops ++ [op]) = (vcRun cm avail st ops).bind fun s => vcStep cm avail s op
  | [], st => by
    simp only [List.nil_append, vcRun, Option.bind_some]
    cases vcStep cm avail st op <;> rfl
  | o :: ops, st => by
    simp only [List.cons_append, vcRun]
    cases vcStep cm avail st o with
    | none => rfl
    | some s => exact vcRun_snoc' cm avail op ops s

/-- C75: the clients of the theorems above are all those that have logged in and not left. -/
theorem C75_present (cm : CaseMapping) (avail : List Model.Membership) (want : Str) (records : GoMap Str (Str × Bool))
    (ops : List VcOp) (st : VcState) (hrun : vcRun cm avail (vcInit want records) ops = some st) :
    st.clients.map (·.num) = vcLoggedIn ops := by
  induction ops using snocInd generalizing st with
  | nil => cases hrun; rfl
  | snoc ops op ih =>
    rw [vcRun_snoc'] at hrun
    match h0 : vcRun cm avail (vcInit want records) ops with
    | none => rw [h0] at hrun; exact nomatch hrun
    | some st0 =>
    rw [h0] at hrun
    have ih := ih st0 h0
    unfold vcLoggedIn at ih ⊢
    rw [List.foldl_append, ← ih]
    simp only [List.foldl_cons, List.foldl_nil]
    simp only [Option.bind_some] at hrun
    cases op <;> simp only [vcStep] at hrun ⊢
    case connected => cases hrun; exact vmap_num (updateNick_num _)
    case disconnected => cases hrun; rfl
    case server =>
      split at hrun
      · exact server_num hrun
      · cases hrun; rfl
    case login =>
      cases hrun
      unfold vcWelcome
      simp [sendAll_num]
    case logout => cases hrun; exact vfilter_num
    case cJoin =>
      split at hrun
      · split at hrun
        · exact attach_num hrun
        · cases hrun; rfl
      · cases hrun; rfl
    case cDetach =>
      split at hrun
      · split at hrun <;> cases hrun
        · exact detach_num _ _ _ _
        · rfl
      · cases hrun; rfl
    case cPart => split at hrun <;> cases hrun <;> rfl
    case save => split at hrun <;> cases hrun <;> rfl
    case forget => cases hrun; rfl
    case setNick => cases hrun; rfl
    case detach =>
      split at hrun <;> cases hrun
      · exact detach_num _ _ _ _
      · rfl
    case attach =>
      split at hrun
      · exact attach_num hrun
      · cases hrun; rfl
    case cNick =>
      split at hrun <;> cases hrun
      · rfl
      · exact vmap_num fun c => by split; exact updateNick_num _ _; rfl
    case cNames =>
      split at hrun <;> cases hrun
      · exact vmap_num fun c => by split; exact sendAll_num _ _; rfl
      · rfl
    case cTopic =>
      split at hrun <;> cases hrun
      · exact vmap_num fun c => by split; exact sendAll_num _ _; rfl
      · rfl
    case setModes =>
      repeat' split at hrun
      all_goals cases hrun; rfl
example : vcLoggedIn [.connected b!"me", .login 1 false false false, .login 2 false false false, .logout 1] = [2] ∧
    (vcRun .ascii vcAvail (vcInit b!"me" []) [.connected b!"me", .login 1 false false false,
      .login 2 false false false, .logout 1]).isSome = true := by decide +kernel

example : nvLoggedIn [.login 1 true, .login 2 false, .logout 1] = [2] := by decide

end Verif.Props
