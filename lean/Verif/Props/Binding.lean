import Verif.Model.UserLoop
import Verif.Proof.Util

/-! # C70: a client stays with the network it has chosen

A history is any interleaving of the steps in `Model/UserLoop.lean`. -/

namespace Verif.Props

open Verif.Model Verif.Proof

/-- The client has been let in and has not been closed since. -/
def LetIn (c : UlClient) : Prop := c.listed = true ∧ c.closed = false

/-- The client has logged in with this choice of a network. -/
def Chose (ops : List UlOp) (client : Nat) (choice : Option Nat) : Prop :=
  ∃ fail dbUser dbNet, UlOp.login client choice fail dbUser dbNet ∈ ops

private structure BindInv (ops : List UlOp) (st : UlState) : Prop where
  ids : (st.nets.map (·.id)).Nodup
  lt : ∀ n ∈ st.nets, n.id < st.nextId
  objs : ∀ n ∈ st.nets, n.obj < st.nextObj
  sameObj : ∀ {m n}, m ∈ st.nets → n ∈ st.nets → m.obj = n.obj → m.id = n.id
  bound : ∀ c ∈ st.clients, LetIn c → ∀ o, c.net = some o →
    ∃ n ∈ st.nets, n.obj = o ∧ Chose ops c.id (some n.id)

private theorem chose_mono {ops : List UlOp} {op : UlOp} {k : Nat} {x : Option Nat} (h : Chose ops k x) :
    Chose (ops ++ [op]) k x := by
  obtain ⟨a, b, c, h⟩ := h
  exact ⟨a, b, c, by simp [h]⟩

private theorem bind_mono {ops : List UlOp} {op : UlOp} {st : UlState} (h : BindInv ops st) :
    BindInv (ops ++ [op]) st :=
  ⟨h.ids, h.lt, h.objs, h.sameObj, fun c hc hl o ho => by
    obtain ⟨n, hn, h1, h2⟩ := h.bound c hc hl o ho
    exact ⟨n, hn, h1, chose_mono h2⟩⟩

/-- Steps that change neither the numbers and objects of the networks, nor give anyone another network. -/
private theorem bind_frame {ops : List UlOp} {st st' : UlState} (h : BindInv ops st)
    (hn : st'.nets.map (fun n => (n.obj, n.id)) = st.nets.map (fun n => (n.obj, n.id)))
    (h1 : st'.nextId = st.nextId) (h2 : st'.nextObj = st.nextObj)
    (hc : ∀ c ∈ st'.clients, LetIn c → ∀ o, c.net = some o →
      ∃ d ∈ st.clients, LetIn d ∧ d.id = c.id ∧ d.net = c.net) : BindInv ops st' := by
  have hsub : ∀ n ∈ st'.nets, ∃ m ∈ st.nets, m.obj = n.obj ∧ m.id = n.id := by
    intro n hm
    have : (n.obj, n.id) ∈ st.nets.map (fun n => (n.obj, n.id)) := by
      rw [← hn]; exact List.mem_map.2 ⟨n, hm, rfl⟩
    obtain ⟨m, hm, e⟩ := List.mem_map.1 this
    simp only [Prod.mk.injEq] at e
    exact ⟨m, hm, e⟩
  have hsup : ∀ n ∈ st.nets, ∃ m ∈ st'.nets, m.obj = n.obj ∧ m.id = n.id := by
    intro n hm
    have : (n.obj, n.id) ∈ st'.nets.map (fun n => (n.obj, n.id)) := by
      rw [hn]; exact List.mem_map.2 ⟨n, hm, rfl⟩
    obtain ⟨m, hm, e⟩ := List.mem_map.1 this
    simp only [Prod.mk.injEq] at e
    exact ⟨m, hm, e⟩
  refine ⟨?_, ?_, ?_, ?_, ?_⟩
  · have := congrArg (List.map (·.2)) hn
    simp only [List.map_map] at this
    show (st'.nets.map ((·.2) ∘ fun n : UlNet => (n.obj, n.id))).Nodup
    rw [this]
    exact h.ids
  · intro n hm
    obtain ⟨m, hm, e1, e2⟩ := hsub n hm
    rw [h1, ← e2]; exact h.lt m hm
  · intro n hm
    obtain ⟨m, hm, e1, e2⟩ := hsub n hm
    rw [h2, ← e1]; exact h.objs m hm
  · intro m n hm hn he
    obtain ⟨m', hm', e1, e2⟩ := hsub m hm
    obtain ⟨n', hn', e3, e4⟩ := hsub n hn
    rw [← e2, ← e4]
    exact h.sameObj hm' hn' (by rw [e1, e3, he])
  · intro c hcc hl o ho
    obtain ⟨d, hd, hdl, e1, e2⟩ := hc c hcc hl o ho
    obtain ⟨n, hn, e3, e4⟩ := h.bound d hd hdl o (e2.trans ho)
    obtain ⟨m, hm, e5, e6⟩ := hsup n hn
    exact ⟨m, hm, e5.trans e3, by rw [e6, ← e1]; exact e4⟩

private theorem bind_update {ops : List UlOp} {st st' : UlState} {id : Nat} {e : Bool} {a : UlAddr} {ok : Bool}
    (h : BindInv ops st) (hu : ulUpdate st id e a ok = some st') : BindInv ops st' := by
  unfold ulUpdate at hu
  split at hu
  · cases hu
  · rename_i n hf
    have hnm := List.mem_of_find?_eq_some hf
    have hnid : n.id = id := by simpa using List.find?_some hf
    split at hu
    · cases hu
    · simp only [Option.some.injEq] at hu
      subst hu
      refine ⟨?_, ?_, ?_, ?_, ?_⟩
      · have : (st.nets.map (fun m => if m.id = id then ulNewNet st.nextObj id e a else m)).map (·.id) =
            st.nets.map (·.id) := by
          rw [List.map_map]
          apply List.map_congr_left
          intro m _
          show (if m.id = id then _ else m : UlNet).id = m.id
          split
          · rename_i he; simp [ulNewNet, he]
          · rfl
        show (List.map (fun n : UlNet => n.id) _).Nodup
        rw [this]; exact h.ids
      · intro m hm
        obtain ⟨m0, hm0, rfl⟩ := List.mem_map.1 hm
        split
        · rename_i he; show id < _; rw [← he]; exact h.lt m0 hm0
        · exact h.lt m0 hm0
      · intro m hm
        obtain ⟨m0, hm0, rfl⟩ := List.mem_map.1 hm
        split
        · exact Nat.lt_succ_self _
        · exact Nat.lt_succ_of_lt (h.objs m0 hm0)
      · intro m1 m2 hm1 hm2 he
        obtain ⟨n1, hn1, rfl⟩ := List.mem_map.1 hm1
        obtain ⟨n2, hn2, rfl⟩ := List.mem_map.1 hm2
        by_cases h1 : n1.id = id <;> by_cases h2 : n2.id = id
        · rw [if_pos h1, if_pos h2]
        · rw [if_pos h1, if_neg h2] at he
          exact absurd he (Nat.ne_of_gt (h.objs n2 hn2))
        · rw [if_neg h1, if_pos h2] at he
          exact absurd he (Nat.ne_of_lt (h.objs n1 hn1))
        · rw [if_neg h1, if_neg h2] at he ⊢
          exact h.sameObj hn1 hn2 he
      · intro c hc hl o ho
        obtain ⟨c0, hc0, rfl⟩ := List.mem_map.1 hc
        by_cases hb : c0.listed = true ∧ c0.net = some n.obj
        · rw [if_pos hb] at hl ho ⊢
          simp only [Option.some.injEq] at ho
          obtain ⟨m, hm, e1, e2⟩ := h.bound c0 hc0 hl _ hb.2
          refine ⟨ulNewNet st.nextObj id e a, List.mem_map.2 ⟨n, hnm, by rw [if_pos hnid]⟩, ho, ?_⟩
          have hm2 : m.id = n.id ∨ m.id ≠ n.id := Decidable.em _
          rcases hm2 with hm2 | hm2
          · show Chose ops c0.id (some id)
            rw [← hnid, ← hm2]; exact e2
          · -- two networks with one object
            exact absurd e1 (fun _ => hm2 (h.sameObj hm hnm e1))
        · rw [if_neg hb] at hl ho ⊢
          obtain ⟨m, hm, e1, e2⟩ := h.bound c0 hc0 hl o ho
          refine ⟨m, List.mem_map.2 ⟨m, hm, ?_⟩, e1, e2⟩
          rw [if_neg]
          intro he
          have : m = n := eq_of_nodup_map h.ids hm hnm (he.trans hnid.symm)
          subst this
          exact hb ⟨hl.1, by rw [ho, e1]⟩

private theorem bind_updateAll {ops : List UlOp} (dbNet : Nat → Bool) (l : List UlNet) :
    ∀ {st : UlState}, BindInv ops st → BindInv ops (ulUpdateAll dbNet l st).1 := by
  induction l with
  | nil => intro st h; exact h
  | cons m rest ih =>
    intro st h
    unfold ulUpdateAll
    split
    · exact ih h
    · rename_i st' he; exact ih (bind_update h he)

private theorem bind_closeAll {ops : List UlOp} {st : UlState} (h : BindInv ops st) : BindInv ops (ulCloseAll st) := by
  refine bind_frame h rfl rfl rfl ?_
  intro c hc hl o ho
  obtain ⟨c0, hc0, rfl⟩ := List.mem_map.1 hc
  by_cases hb : c0.listed = true
  · rw [if_pos hb] at hl; exact absurd hl.2 (by simp)
  · rw [if_neg hb] at hl; exact absurd hl.1 hb

private theorem bind_updateUser {ops : List UlOp} {st : UlState} (h : BindInv ops st) (ch : UlChange) (dbUser : Bool)
    (dbNet : Nat → Bool) (skip : UlNet → Bool) : BindInv ops (ulUpdateUser st ch dbUser dbNet skip).1 := by
  unfold ulUpdateUser
  split
  · exact h
  · have hs : BindInv ops (ulStored st ch) :=
      bind_frame h rfl rfl rfl (fun c hc hl _ _ => ⟨c, hc, hl, rfl, rfl⟩)
    have hr : BindInv ops (ulUpdateNets st (ulStored st ch) ch dbNet skip).1 := by
      unfold ulUpdateNets
      dsimp only
      split
      · exact bind_updateAll _ _ hs
      · exact hs
    dsimp only
    split
    · exact hr
    · split
      · exact hr
      · exact bind_closeAll hr

private theorem bind_create {ops : List UlOp} {st : UlState} (h : BindInv ops st) (e : Bool) (a : UlAddr) (ok : Bool) :
    BindInv ops (ulCreate st e a ok) := by
  unfold ulCreate
  split
  · exact h
  · refine ⟨?_, ?_, ?_, ?_, ?_⟩
    · show (List.map (·.id) (st.nets ++ [ulNewNet st.nextObj st.nextId e a])).Nodup
      rw [List.map_append, List.nodup_append]
      refine ⟨h.ids, by simp, ?_⟩
      intro x hx y hy
      obtain ⟨n, hn, rfl⟩ := List.mem_map.1 hx
      simp only [List.map_cons, List.map_nil, List.mem_singleton] at hy
      subst hy
      exact Nat.ne_of_lt (h.lt n hn)
    · intro n hn
      rcases List.mem_append.1 hn with hn | hn
      · exact Nat.lt_succ_of_lt (h.lt n hn)
      · rw [List.mem_singleton.1 hn]; exact Nat.lt_succ_self _
    · intro n hn
      rcases List.mem_append.1 hn with hn | hn
      · exact Nat.lt_succ_of_lt (h.objs n hn)
      · rw [List.mem_singleton.1 hn]; exact Nat.lt_succ_self _
    · intro m n hm hn he
      rcases List.mem_append.1 hm with hm | hm <;> rcases List.mem_append.1 hn with hn | hn
      · exact h.sameObj hm hn he
      · rw [List.mem_singleton.1 hn] at he
        exact absurd he (Nat.ne_of_lt (h.objs m hm))
      · rw [List.mem_singleton.1 hm] at he
        exact absurd he (Nat.ne_of_gt (h.objs n hn))
      · rw [List.mem_singleton.1 hm, List.mem_singleton.1 hn]
    · intro c hc hl o ho
      obtain ⟨n, hn, h1, h2⟩ := h.bound c hc hl o ho
      exact ⟨n, List.mem_append_left _ hn, h1, h2⟩

private theorem bind_delete {ops : List UlOp} {st : UlState} (h : BindInv ops st) (id : Nat) (ok : Bool) :
    BindInv ops (ulDelete st id ok) := by
  unfold ulDelete
  split
  · exact h
  · rename_i n hf
    split
    · exact h
    · unfold ulRemove
      have hnm := List.mem_of_find?_eq_some hf
      have hsub : ∀ m ∈ st.nets.filter (fun m => m.id ≠ n.id), m ∈ st.nets := fun m hm => (List.mem_filter.1 hm).1
      refine ⟨?_, fun m hm => h.lt m (hsub m hm), fun m hm => h.objs m (hsub m hm),
        fun hm hn => h.sameObj (hsub _ hm) (hsub _ hn), ?_⟩
      · exact List.Nodup.sublist (List.Sublist.map _ List.filter_sublist) h.ids
      · intro c hc hl o ho
        obtain ⟨c0, hc0, rfl⟩ := List.mem_map.1 hc
        by_cases hb : c0.listed = true ∧ c0.net = some n.obj
        · rw [if_pos hb] at hl; exact absurd hl.2 (by simp)
        · rw [if_neg hb] at hl ho ⊢
          obtain ⟨m, hm, e1, e2⟩ := h.bound c0 hc0 hl o ho
          refine ⟨m, List.mem_filter.2 ⟨hm, ?_⟩, e1, e2⟩
          apply decide_eq_true
          intro he
          have : m = n := eq_of_nodup_map h.ids hm hnm he
          subst this
          exact hb ⟨hl.1, by rw [ho, e1]⟩

private theorem bind_exec {ops : List UlOp} {st : UlState} (h : BindInv ops st) (c : UlCmd) :
    BindInv ops (ulExec st c).1 := by
  cases c with
  | plain => exact h
  | other => exact h
  | realname dbUser dbNet skip => exact bind_updateUser h _ _ _ _
  | create e a ok => exact bind_create h e a ok
  | update id e a ok =>
    simp only [ulExec]
    cases hu : ulUpdate st id e a ok with
    | none => exact h
    | some st' => exact bind_update h hu
  | delete id ok => exact bind_delete h id ok

private theorem mapObj_ids (obj : Nat) (f : UlNet → UlNet) (hf : ∀ n, (f n).obj = n.obj ∧ (f n).id = n.id)
    (l : List UlNet) : (ulMapObj obj f l).map (fun n => (n.obj, n.id)) = l.map (fun n => (n.obj, n.id)) := by
  unfold ulMapObj
  rw [List.map_map]
  apply List.map_congr_left
  intro n _
  show ((if n.obj = obj then f n else n : UlNet).obj, (if n.obj = obj then f n else n : UlNet).id) = _
  split
  · rw [(hf n).1, (hf n).2]
  · rfl

private theorem gor_ids (e : Bool) (s : UlGStep) (n : UlNet) : (ulGor e s n).obj = n.obj ∧ (ulGor e s n).id = n.id := by
  unfold ulGor; split <;> exact ⟨rfl, rfl⟩

private theorem event_ids (n : UlNet) : (ulEvent n).obj = n.obj ∧ (ulEvent n).id = n.id := by
  unfold ulEvent; split <;> exact ⟨rfl, rfl⟩

private theorem bind_step {onAuth : Bool} {ops : List UlOp} {st : UlState} (h0 : BindInv ops st) (op : UlOp) :
    BindInv (ops ++ [op]) (ulStep onAuth st op).1 := by
  have h := bind_mono (op := op) h0
  cases op with
  | net obj s =>
    exact bind_frame h (mapObj_ids obj _ (gor_ids _ s) _) rfl rfl (fun c hc hl _ _ => ⟨c, hc, hl, rfl, rfl⟩)
  | auth k =>
    simp only [ulStep]
    split
    · exact h
    · refine bind_frame h rfl rfl rfl ?_
      intro c hc hl o ho
      rcases List.mem_append.1 hc with hc | hc
      · exact ⟨c, hc, hl, rfl, rfl⟩
      · rw [List.mem_singleton.1 hc] at ho; cases ho
  | hangup k =>
    refine bind_frame h rfl rfl rfl ?_
    intro c hc hl o ho
    obtain ⟨c0, hc0, rfl⟩ := List.mem_map.1 hc
    by_cases hb : c0.id = k
    · rw [if_pos hb] at hl; exact absurd hl.2 (by simp)
    · rw [if_neg hb] at hl ⊢; exact ⟨c0, hc0, hl, rfl, rfl⟩
  | netEvent obj =>
    simp only [ulStep]
    split
    · exact h
    · exact bind_frame h (mapObj_ids obj _ event_ids _) rfl rfl (fun c hc hl _ _ => ⟨c, hc, hl, rfl, rfl⟩)
  | login k bind fail dbUser dbNet =>
    simp only [ulStep]
    split
    · exact h
    · split
      · unfold ulLogin
        have hr : BindInv (ops ++ [.login k bind fail dbUser dbNet]) (ulEnableOnAuth onAuth st dbUser dbNet).1 := by
          unfold ulEnableOnAuth
          split
          · exact bind_updateUser h _ _ _ _
          · exact h
        revert hr
        generalize ulEnableOnAuth onAuth st dbUser dbNet = r
        intro hr
        refine ⟨hr.ids, hr.lt, hr.objs, hr.sameObj, ?_⟩
        intro c hc hl o ho
        obtain ⟨c0, hc0, rfl⟩ := List.mem_map.1 hc
        by_cases hb : c0.id = k
        · rw [if_pos hb] at hl ho ⊢
          unfold ulAdmit at hl ho ⊢
          split at hl
          · rename_i he
            rw [if_pos he] at ho ⊢
            exact hr.bound c0 hc0 ⟨hl.1, hl.2⟩ o ho
          · rename_i he
            rw [if_neg he] at ho ⊢
            split at hl
            · rename_i he2
              rw [if_pos he2] at ho ⊢
              exact hr.bound c0 hc0 ⟨hl.1, hl.2⟩ o ho
            · rename_i he2
              rw [if_neg he2] at ho ⊢
              dsimp only at ho
              cases hbd : bind with
              | none => rw [hbd] at ho; cases ho
              | some id =>
                rw [hbd] at ho
                simp only [Option.bind_some, Option.map_eq_some_iff] at ho
                obtain ⟨n, hf, hno⟩ := ho
                have hid : n.id = id := by simpa using List.find?_some hf
                refine ⟨n, List.mem_of_find?_eq_some hf, hno, fail, dbUser, dbNet, ?_⟩
                rw [hid, ← hbd]
                show UlOp.login c0.id bind fail dbUser dbNet ∈ _
                rw [hb]
                simp
        · rw [if_neg hb] at hl ho ⊢
          exact hr.bound c0 hc0 hl o ho
      · exact h
  | cmd k c =>
    simp only [ulStep]
    split
    · exact h
    · unfold ulCmd
      split
      · exact h
      · split
        · exact h
        · split
          · split
            · exact h
            · exact bind_frame h rfl rfl rfl (fun c hc hl _ _ => ⟨c, hc, hl, rfl, rfl⟩)
          · exact bind_exec h c
  | gone k =>
    simp only [ulStep]
    split
    · exact h
    · refine bind_frame h rfl rfl rfl ?_
      intro c hc hl o ho
      obtain ⟨c0, hc0, rfl⟩ := List.mem_map.1 hc
      by_cases hb : c0.id = k
      · rw [if_pos hb] at hl; exact absurd hl.2 (by simp)
      · rw [if_neg hb] at hl ⊢; exact ⟨c0, hc0, hl, rfl, rfl⟩
  | account ch dbUser dbNet =>
    simp only [ulStep]
    split
    · exact h
    · dsimp only
      split
      · exact bind_closeAll (bind_updateUser h _ _ _ _)
      · exact bind_updateUser h _ _ _ _
  | adminRun c =>
    simp only [ulStep]
    split
    · exact h
    · exact bind_exec h c

private theorem bind_run (onAuth : Bool) (ops : List UlOp) : ∀ {past : List UlOp} {st : UlState}, BindInv past st →
    BindInv (past ++ ops) (ulRun onAuth st ops).1 := by
  induction ops with
  | nil => intro past st h; rw [List.append_nil]; exact h
  | cons op ops ih =>
    intro past st h
    have := ih (bind_step (onAuth := onAuth) h op)
    rw [List.append_assoc] at this
    exact this

private theorem bind_start (e a : Bool) (recs : List (Nat × Bool × UlAddr)) (nx : Nat)
    (nd : (recs.map (·.1)).Nodup) (lt : ∀ r ∈ recs, r.1 < nx) : BindInv [] (ulStart e a recs nx) := by
  have hm : ∀ n ∈ (ulStart e a recs nx).nets, ∃ i, ∃ h : i < recs.length, n.obj = i ∧ n.id = (recs[i]).1 := by
    intro n hn
    obtain ⟨p, hp, rfl⟩ := List.mem_map.1 hn
    obtain ⟨r, i⟩ := p
    have := List.mem_zipIdx hp
    refine ⟨i, by omega, rfl, ?_⟩
    obtain ⟨_, h2, h3⟩ := this
    simp only [Nat.sub_zero] at h3
    show r.1 = _
    exact congrArg (·.1) h3
  refine ⟨?_, ?_, ?_, ?_, fun c hc => absurd hc List.not_mem_nil⟩
  · have : (ulStart e a recs nx).nets.map (·.id) = recs.map (·.1) := by
      unfold ulStart
      rw [List.map_map]
      show List.map ((fun r : Nat × Bool × UlAddr => r.1) ∘ Prod.fst) recs.zipIdx = _
      rw [← List.map_map, List.zipIdx_map_fst]
    rw [this]; exact nd
  · intro n hn
    obtain ⟨i, hi, _, e⟩ := hm n hn
    rw [e]; exact lt _ (List.getElem_mem hi)
  · intro n hn
    obtain ⟨i, hi, e, _⟩ := hm n hn
    rw [e]; exact hi
  · intro m n hm' hn he
    obtain ⟨i, hi, e1, e2⟩ := hm m hm'
    obtain ⟨j, hj, e3, e4⟩ := hm n hn
    have : i = j := by rw [← e1, ← e3, he]
    subst this
    rw [e2, e4]

/-- C70: after every history, a client that was let in and is still connected and that has a network has the network
it chose when it logged in: it is one of the networks of the account, with the number it chose, in its current form —
however often the network, the account or other networks were changed meanwhile. -/
theorem C70_same_network (onAuth enabled admin : Bool) (recs : List (Nat × Bool × UlAddr)) (nextId : Nat)
    (nd : (recs.map (·.1)).Nodup) (lt : ∀ r ∈ recs, r.1 < nextId) (ops : List UlOp) :
    let st := (ulRun onAuth (ulStart enabled admin recs nextId) ops).1
    ∀ c ∈ st.clients, LetIn c → ∀ o, c.net = some o → ∃ n ∈ st.nets, n.obj = o ∧ Chose ops c.id (some n.id) := by
  intro st
  have := bind_run onAuth ops (bind_start enabled admin recs nextId nd lt)
  rw [List.nil_append] at this
  exact this.bound

/-- Two networks, a client with each of them and one with neither; the first network is changed twice, then the
second one is deleted. -/
private def bindingHistory : List UlOp :=
  [.auth 7, .auth 8, .auth 9, .login 7 (some 10) false true [], .login 8 (some 11) false true [],
   .login 9 none false true [], .cmd 9 (.update 10 true .internet true), .cmd 7 (.update 10 false .internet true),
   .cmd 7 (.delete 11 true)]

example :
    let st := (ulRun false (ulStart true false [(10, true, .internet), (11, true, .internet)] 12) bindingHistory).1
    st.clients.map (fun c => (c.id, c.closed, c.net)) = [(7, false, some 3), (8, true, some 1), (9, false, none)] ∧
    st.nets.map (fun n => (n.id, n.obj)) = [(10, 3)] := by decide

/-- The network of a client, by its number. -/
def networkOf (st : UlState) (c : UlClient) : Option Nat :=
  c.net.bind (fun o => (st.nets.find? (fun n => n.obj = o)).map (·.id))

/-- C70: changing the settings of a network cuts off nobody, whoever changes them and however many networks
there are. -/
theorem C70_update (st st' : UlState) (id : Nat) (enabled : Bool) (addr : UlAddr) (dbOk : Bool)
    (h : ulUpdate st id enabled addr dbOk = some st') :
    st'.clients.map (fun c => (c.id, c.user, c.listed, c.closed)) =
      st.clients.map (fun c => (c.id, c.user, c.listed, c.closed)) := by
  unfold ulUpdate at h
  split at h
  · cases h
  · split at h
    · cases h
    · simp only [Option.some.injEq] at h
      subst h
      rw [List.map_map]
      apply List.map_congr_left
      intro c _
      dsimp only [Function.comp]
      split <;> rfl

/-- C70: deleting a network cuts off its clients and no others.  (After every history, `networkOf` is what the client
chose, by `C70_same_network`.) -/
theorem C70_delete (onAuth enabled admin : Bool) (recs : List (Nat × Bool × UlAddr)) (nextId : Nat)
    (nd : (recs.map (·.1)).Nodup) (lt : ∀ r ∈ recs, r.1 < nextId) (ops : List UlOp) (id : Nat) :
    let st := (ulRun onAuth (ulStart enabled admin recs nextId) ops).1
    ∀ c ∈ st.clients, LetIn c →
      ((networkOf st c = some id → ∃ d ∈ (ulDelete st id true).clients, d.id = c.id ∧ d.closed = true) ∧
       (networkOf st c ≠ some id → c ∈ (ulDelete st id true).clients)) := by
  intro st c hc hl
  have hi := bind_run onAuth ops (bind_start enabled admin recs nextId nd lt)
  rw [List.nil_append] at hi
  have hi : BindInv ops st := hi
  have hobj : ∀ {m n}, m ∈ st.nets → n ∈ st.nets → m.obj = n.obj → m = n :=
    fun hm hn he => eq_of_nodup_map hi.ids hm hn (hi.sameObj hm hn he)
  have hnet : ∀ n ∈ st.nets, networkOf st c = some n.id ↔ c.net = some n.obj := by
    intro n hn
    unfold networkOf
    cases hcn : c.net with
    | none => simp
    | some o =>
      obtain ⟨m, hm, hmo, _⟩ := hi.bound c hc hl o hcn
      have hf : ∃ m', st.nets.find? (fun n => n.obj = o) = some m' := by
        cases hf : st.nets.find? (fun n => n.obj = o) with
        | none =>
          have := List.find?_eq_none.1 hf m hm
          exact absurd hmo (by simpa using this)
        | some m' => exact ⟨m', rfl⟩
      obtain ⟨m', hf⟩ := hf
      have hmo' : m'.obj = o := by simpa using List.find?_some hf
      have hmm := List.mem_of_find?_eq_some hf
      simp only [Option.bind_some, hf, Option.map_some, Option.some.injEq]
      constructor
      · intro he
        rw [← hmo', eq_of_nodup_map hi.ids hmm hn he]
      · intro he
        rw [hobj hmm hn (hmo'.trans he)]
  unfold ulDelete
  cases hf : st.nets.find? (fun n => n.id = id) with
  | none =>
    dsimp only
    refine ⟨?_, fun _ => hc⟩
    intro he
    unfold networkOf at he
    obtain ⟨o, ho, he⟩ := Option.bind_eq_some_iff.1 he
    obtain ⟨m, hm, hme⟩ := Option.map_eq_some_iff.1 he
    have := List.find?_eq_none.1 hf m (List.mem_of_find?_eq_some hm)
    exact absurd hme (by simpa using this)
  | some n =>
    have hnm := List.mem_of_find?_eq_some hf
    have hnid : n.id = id := by simpa using List.find?_some hf
    dsimp only
    simp only [Bool.not_true, Bool.false_eq_true, if_false, ulRemove]
    constructor
    · intro he
      rw [← hnid] at he
      refine ⟨{ c with closed := true }, List.mem_map.2 ⟨c, hc, ?_⟩, rfl, rfl⟩
      rw [if_pos ⟨hl.1, (hnet n hnm).1 he⟩]
    · intro he
      refine List.mem_map.2 ⟨c, hc, ?_⟩
      rw [if_neg]
      rintro ⟨_, h2⟩
      exact he (hnid ▸ (hnet n hnm).2 h2)

example :
    let st := (ulRun false (ulStart true false [(10, true, .internet), (11, true, .internet)] 12)
      (bindingHistory.take 8)).1
    st.clients.map (networkOf st) = [some 10, some 11, none] ∧
    (ulDelete st 11 true).clients.map (·.closed) = [false, true, false] := by decide

/-- C70: a client that logs in to an enabled account is let in and has the network it asked for. -/
theorem C70_login (onAuth enabled admin : Bool) (recs : List (Nat × Bool × UlAddr)) (nextId : Nat)
    (nd : (recs.map (·.1)).Nodup) (lt : ∀ r ∈ recs, r.1 < nextId) (ops : List UlOp) (client : Nat)
    (choice : Option Nat) (dbUser : Bool) (dbNet : List Nat) :
    let st := (ulRun onAuth (ulStart enabled admin recs nextId) ops).1
    let st' := (ulStep onAuth st (.login client choice false dbUser dbNet)).1
    st.crashed = false → st.enabled = true → (∀ id, choice = some id → ∃ n ∈ st.nets, n.id = id) →
    (∃ c ∈ st.clients, c.id = client ∧ c.seen = false) →
    ∀ c ∈ st'.clients, c.id = client → c.listed = true ∧ networkOf st' c = choice := by
  intro st st' hcr hen hch ⟨c0, hc0, e0, s0⟩ c hc hid
  have hi := bind_run onAuth ops (bind_start enabled admin recs nextId nd lt)
  rw [List.nil_append] at hi
  have hi : BindInv ops st := hi
  have hst' : st' = { st with clients := ulMapClient client (ulAdmit st choice false) st.clients } := by
    show (ulStep onAuth st (.login client choice false dbUser dbNet)).1 = _
    simp only [ulStep]
    rw [if_neg (by simp [hcr]), if_pos (List.any_eq_true.2 ⟨c0, hc0, by simp [e0, s0]⟩)]
    have h1 : ulEnableOnAuth onAuth st dbUser dbNet = (st, none) := by simp [ulEnableOnAuth, hen]
    simp only [ulLogin, h1]
  rw [hst'] at hc ⊢
  obtain ⟨d, hd, rfl⟩ := List.mem_map.1 hc
  have hdid : d.id = client := by
    by_cases hb : d.id = client
    · exact hb
    · rw [if_neg hb] at hid; exact hid
  rw [if_pos hdid]
  unfold ulAdmit
  simp only [hen, Bool.not_true, Bool.false_eq_true, if_false]
  refine ⟨trivial, ?_⟩
  unfold networkOf
  cases choice with
  | none => rfl
  | some id =>
    obtain ⟨n, hn, hnid⟩ := hch id rfl
    have hf : ∃ m, st.nets.find? (fun n => n.id = id) = some m := by
      cases hf : st.nets.find? (fun n => n.id = id) with
      | none => exact absurd hnid (by simpa using List.find?_eq_none.1 hf n hn)
      | some m => exact ⟨m, rfl⟩
    obtain ⟨m, hf⟩ := hf
    have hmid : m.id = id := by simpa using List.find?_some hf
    have hmm := List.mem_of_find?_eq_some hf
    simp only [Option.bind_some, hf, Option.map_some]
    have hf2 : st.nets.find? (fun n => n.obj = m.obj) = some m := by
      cases hf2 : st.nets.find? (fun n => n.obj = m.obj) with
      | none => exact absurd (decide_eq_true rfl) (List.find?_eq_none.1 hf2 m hmm)
      | some m' =>
        have h1 : m'.obj = m.obj := by simpa using List.find?_some hf2
        have h2 := List.mem_of_find?_eq_some hf2
        rw [eq_of_nodup_map hi.ids h2 hmm (hi.sameObj h2 hmm h1)]
    rw [hf2, Option.map_some, hmid]

example :
    let st := (ulRun false (ulStart true false [(10, true, .internet), (11, true, .internet)] 12)
      (bindingHistory.take 3)).1
    st.crashed = false ∧ st.enabled = true ∧ (∃ n ∈ st.nets, n.id = 11) ∧
    (∃ c ∈ st.clients, c.id = 8 ∧ c.seen = false) := by decide

end Verif.Props
