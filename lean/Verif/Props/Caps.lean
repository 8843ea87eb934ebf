import Verif.Proof.Caps
import Verif.Proof.GoStr

/-! # C25: capability negotiation is consistent -/

namespace Verif.Props
open Verif.Model Verif.Proof

/-! ## Specification -/

/-- The capability a word of CAP REQ names: without the leading minus, in lower case. -/
def wordName (w : Str) : Str := asciiLower (if w.head? = some 45 then w.tail else w)

/-- Does a word of CAP REQ ask to enable (no leading minus)? -/
def wordOn (w : Str) : Bool := decide (w.head? ≠ some 45)

/-- Every enabled capability is offered. -/
def EnabledOffered (st : DCaps) : Prop :=
  ∀ c ∈ st.reg.enabled, (GoMap.get st.reg.available c).isSome = true

/-- The capabilities a client believes enabled, from what the bouncer tells it (CAP version 302). -/
def clientView (view : List Str) : CapReply → List Str
  | .ack arg => (fields arg).foldl (fun v w =>
      if wordOn w then wordName w :: v else v.filter (fun n => decide (n ≠ wordName w))) view
  | .delete name => view.filter (fun n => decide (n ≠ name))
  | _ => view

/-- No request asks for a capability both ways. -/
def ConsistentReq (arg : Str) : Prop :=
  ∀ w ∈ fields arg, ∀ w' ∈ fields arg, wordName w' = wordName w → wordOn w' = wordOn w

/-- A history of a client that speaks version 302 or later and never asks for a capability both ways in
one request; upstreams change in whatever way. -/
def Client302 : CapOp → Prop
  | .cap cmd args =>
    (asciiUpper cmd = b!"LS" → ∀ a ∈ args.head?, ∃ v : Int, parseInt64 a = some v ∧ v ≥ 302) ∧
    (asciiUpper cmd = b!"REQ" → ∀ a ∈ args.head?, ConsistentReq a)
  | .update order _ => order.Perm needAllDownstreamCaps
  | .registered => True

/-! ## Lemmas -/

private theorem capToken_eq (w : Str) : capToken w = (wordName w, wordOn w) := by
  unfold capToken wordName wordOn
  cases w with
  | nil => simp [asciiLower, hasPrefix, List.isPrefixOf]
  | cons c s =>
    by_cases h : c = 45
    · subst h
      simp [asciiLower, hasPrefix, trimPrefix, List.isPrefixOf]
    · have : ¬ (45 = if 65 ≤ c ∧ c ≤ 90 then c + 32 else c) := by split <;> omega
      simp [asciiLower, hasPrefix, List.isPrefixOf, h, this]

private theorem capREQ_spec (st : DCaps) (arg : Str) (rest : List Str) :
    (capREQ st (arg :: rest) = ({ st with negotiating := if st.registered then st.negotiating else true },
        [.nak arg]) ∧ ∃ w ∈ fields arg, ¬ tokenOk st w) ∨
    (∃ m, capREQ st (arg :: rest) = (⟨applyReq m st.reg, st.version, st.registered,
        if st.registered then st.negotiating else true⟩, [.ack arg]) ∧
      capReqLoop st (fields arg) [] = some m ∧ (∀ w ∈ fields arg, tokenOk st w)) := by
  unfold capREQ
  cases h : capReqLoop st (fields arg) [] with
  | none =>
    left
    refine ⟨?_, capReqLoop_none.1 h⟩
    simp only [h]
    clear h
    cases st with | mk r v g n => cases g <;> rfl
  | some m =>
    right
    refine ⟨m, ?_, rfl, ?_⟩
    · simp only [h]
      clear h
      cases st with | mk r v g n => cases g <;> rfl
    · intro w hw
      refine Classical.byContradiction fun hn => ?_
      have := (capReqLoop_none (m := [])).2 ⟨w, hw, hn⟩
      rw [h] at this; cases this

/-- The state of a capability after an acknowledged request. -/
private theorem ack_enabled {st : DCaps} {arg : Str} {m : GoMap Str Bool}
    (h : capReqLoop st (fields arg) [] = some m) :
    (∀ name, (∀ w ∈ fields arg, wordName w ≠ name) →
      (name ∈ (applyReq m st.reg).enabled ↔ name ∈ st.reg.enabled)) ∧
    (∀ w ∈ fields arg, (∀ w' ∈ fields arg, wordName w' = wordName w → wordOn w' = wordOn w) →
      (wordName w ∈ (applyReq m st.reg).enabled ↔ wordOn w = true)) := by
  obtain ⟨nd, h2, h3⟩ := capReqLoop_some (by simp) h
  constructor
  · intro name hn
    rw [applyReq_enabled m nd]
    cases hg : GoMap.get m name with
    | none => simp
    | some e =>
      rcases h2 name e hg with h | ⟨w, hw, ht, _⟩
      · simp [GoMap.get] at h
      · rw [capToken_eq] at ht
        exact absurd (congrArg Prod.fst ht) (hn w hw)
  · intro w hw hc
    rw [applyReq_enabled m nd]
    cases hg : GoMap.get m (wordName w) with
    | none =>
      have : ¬ capToken w = (wordName w, !st.reg.isEnabled (wordName w)) := by
        intro ht
        exact h3 (wordName w) (Or.inl ⟨w, hw, ht⟩) hg
      rw [capToken_eq] at this
      simp only
      rw [← isEnabled_iff]
      cases he : st.reg.isEnabled (wordName w) <;> cases ho : wordOn w <;> simp_all
    | some e =>
      rcases h2 _ e hg with h | ⟨w', hw', ht, _⟩
      · simp [GoMap.get] at h
      · rw [capToken_eq] at ht
        have h1 := congrArg Prod.fst ht
        have h2 := congrArg Prod.snd ht
        simp only at h1 h2
        simp only
        rw [← hc w' hw' h1, h2]

private theorem ack_mem {st : DCaps} {arg : Str} {m : GoMap Str Bool}
    (h : capReqLoop st (fields arg) [] = some m) {k : Str} (hk : k ∈ (applyReq m st.reg).enabled) :
    k ∈ st.reg.enabled ∨ (st.reg.isAvailable k = true ∧ k ≠ b!"soju.im/account-required") := by
  obtain ⟨nd, h2, h3⟩ := capReqLoop_some (by simp) h
  rw [applyReq_enabled m nd] at hk
  cases hg : GoMap.get m k with
  | none => rw [hg] at hk; exact Or.inl hk
  | some e =>
    rcases h2 k e hg with h | ⟨w, hw, ht, _, ha, _, hr⟩
    · simp [GoMap.get] at h
    · exact Or.inr ⟨ha, hr⟩

private theorem ack_notify {st : DCaps} {arg : Str} {m : GoMap Str Bool}
    (h : capReqLoop st (fields arg) [] = some m) (hv : st.version ≥ 302)
    (hk : b!"cap-notify" ∈ st.reg.enabled) : b!"cap-notify" ∈ (applyReq m st.reg).enabled := by
  obtain ⟨nd, h2, h3⟩ := capReqLoop_some (by simp) h
  rw [applyReq_enabled m nd]
  cases hg : GoMap.get m b!"cap-notify" with
  | none => exact hk
  | some e =>
    rcases h2 _ e hg with h | ⟨w, hw, ht, _, ha, hc, hr⟩
    · simp [GoMap.get] at h
    · cases e
      · exact absurd ⟨rfl, hv, rfl⟩ hc
      · rfl

/-- What every step of `updateSupportedCaps` preserves, and what it tells the client. -/
private structure UpdStep (st st' : DCaps) (out : List CapReply) : Prop where
  version : st'.version = st.version
  registered : st'.registered = st.registered
  sub : ∀ k ∈ st'.reg.enabled, k ∈ st.reg.enabled
  offered : EnabledOffered st → EnabledOffered st'
  notify : b!"cap-notify" ∈ st.reg.enabled → b!"cap-notify" ∈ st'.reg.enabled
  view : EnabledOffered st → b!"cap-notify" ∈ st.reg.enabled → ∀ v : List Str,
    (∀ k, k ∈ v ↔ k ∈ st.reg.enabled) → ∀ k, k ∈ out.foldl clientView v ↔ k ∈ st'.reg.enabled

private theorem UpdStep.refl (st : DCaps) : UpdStep st st [] :=
  ⟨rfl, rfl, fun _ h => h, fun h => h, fun h => h, fun _ _ v hv k => hv k⟩

private theorem UpdStep.trans {a b c : DCaps} {o o' : List CapReply} (h : UpdStep a b o)
    (h' : UpdStep b c o') : UpdStep a c (o ++ o') := by
  refine ⟨h'.version.trans h.version, h'.registered.trans h.registered,
    fun k hk => h.sub k (h'.sub k hk), fun ho => h'.offered (h.offered ho),
    fun hn => h'.notify (h.notify hn), ?_⟩
  intro ho hn v hv k
  rw [List.foldl_append]
  exact h'.view (h.offered ho) (h.notify hn) _ (fun k => h.view ho hn v hv k) k

private theorem capSeq_step {a : DCaps} {r : DCaps × List CapReply} {f : DCaps → DCaps × List CapReply}
    (h : UpdStep a r.1 r.2) (hf : ∀ st, UpdStep st (f st).1 (f st).2) :
    UpdStep a (capSeq r f).1 (capSeq r f).2 := h.trans (hf r.1)

private theorem set_step (st : DCaps) (name value : Str) :
    UpdStep st (setSupportedCap st name value).1 (setSupportedCap st name value).2 := by
  have hst : (setSupportedCap st name value).1 =
      { st with reg := { st.reg with available := GoMap.set st.reg.available name value } } := by
    unfold setSupportedCap; simp only; split <;> rfl
  rw [hst]
  refine ⟨rfl, rfl, fun k h => h, ?_, fun h => h, ?_⟩
  · intro h k hk
    simp only [mget_mset]
    have := h k hk
    split <;> simp_all
  · intro _ _ v hv k
    have : (setSupportedCap st name value).2.foldl clientView v = v := by
      unfold setSupportedCap; simp only
      split <;> simp [clientView]
    rw [this]; exact hv k

private theorem unset_step (st : DCaps) (name : Str) (hn : name ≠ b!"cap-notify") :
    UpdStep st (unsetSupportedCap st name).1 (unsetSupportedCap st name).2 := by
  have hst : (unsetSupportedCap st name).1 = { st with reg := st.reg.del name } := by
    unfold unsetSupportedCap; simp only; split <;> rfl
  rw [hst]
  have hnot : b!"cap-notify" ∈ (st.reg.del name).enabled ↔ b!"cap-notify" ∈ st.reg.enabled := by
    rw [mem_del]; simp [Ne.symm hn]
  refine ⟨rfl, rfl, fun k h => (mem_del.1 h).2, ?_, hnot.2, ?_⟩
  · intro h k hk
    obtain ⟨h1, h2⟩ := mem_del.1 hk
    have := h k h2
    simp only [CapReg.del, mget_mdel, Ne.symm h1, if_false]
    exact this
  · intro ho hen v hv k
    have he : (st.reg.del name).isEnabled b!"cap-notify" = true := isEnabled_iff.2 (hnot.2 hen)
    rw [mem_del]
    unfold unsetSupportedCap
    simp only [he, Bool.true_eq_false, false_or]
    split
    · rename_i ha
      simp only [List.foldl_nil, hv]
      constructor
      · intro hk
        refine ⟨?_, hk⟩
        rintro rfl
        have := ho k hk
        simp [CapReg.isAvailable] at ha
        simp [ha] at this
      · exact fun h => h.2
    · simp [clientView, hv]
      grind

private theorem needAll_step (env : CapEnv) (st : DCaps) (cap : Str) (hc : cap ≠ b!"cap-notify") :
    UpdStep st (updateNeedAll env st cap).1 (updateNeedAll env st cap).2 := by
  unfold updateNeedAll
  split
  · exact set_step st cap []
  · exact unset_step st cap hc

private theorem sasl_step (env : CapEnv) (st : DCaps) :
    UpdStep st (updateSasl env st).1 (updateSasl env st).2 := by
  unfold updateSasl
  split
  · split
    · exact set_step ..
    · split
      · exact unset_step _ _ (by decide)
      · exact UpdStep.refl st
  · split
    · exact unset_step _ _ (by decide)
    · exact UpdStep.refl st

private theorem reg_step (env : CapEnv) (st : DCaps) :
    UpdStep st (updateRegCap env st).1 (updateRegCap env st).2 := by
  unfold updateRegCap
  split
  · split
    · exact set_step ..
    · exact unset_step _ _ (by decide)
  · exact unset_step _ _ (by decide)

private theorem playback_step (env : CapEnv) (st : DCaps) :
    UpdStep st (updatePlayback env st).1 (updatePlayback env st).2 := by
  unfold updatePlayback
  split
  · exact set_step ..
  · exact unset_step _ _ (by decide)

private theorem order_step (env : CapEnv) (order : List Str) (ho : ∀ c ∈ order, c ≠ b!"cap-notify")
    {a : DCaps} (r : DCaps × List CapReply) (h : UpdStep a r.1 r.2) :
    let r' := order.foldl (fun r cap => capSeq r (fun st => updateNeedAll env st cap)) r
    UpdStep a r'.1 r'.2 := by
  induction order generalizing r with
  | nil => exact h
  | cons c order ih =>
    simp only [List.foldl_cons]
    apply ih (fun c hc => ho c (List.mem_cons_of_mem _ hc))
    exact capSeq_step h (fun st => needAll_step env st c (ho c List.mem_cons_self))

private theorem notify_not_needAll {order : List Str} (h : order.Perm needAllDownstreamCaps) :
    ∀ c ∈ order, c ≠ b!"cap-notify" := by
  intro c hc
  have := h.mem_iff.1 hc
  revert this
  simp only [needAllDownstreamCaps, List.mem_cons, List.not_mem_nil, or_false]
  rintro (rfl | rfl | rfl | rfl | rfl | rfl | rfl | rfl | rfl) <;> decide

private theorem update_step (st : DCaps) (order : List Str) (env : CapEnv)
    (ho : order.Perm needAllDownstreamCaps) :
    UpdStep st (updateSupportedCaps st order env).1 (updateSupportedCaps st order env).2 := by
  unfold updateSupportedCaps
  refine capSeq_step (capSeq_step (capSeq_step ?_ (sasl_step env)) (reg_step env)) (playback_step env)
  exact order_step env order (notify_not_needAll ho) (st, []) (UpdStep.refl st)

/-- Capabilities the bouncer always offers. -/
private theorem unset_keeps (st : DCaps) (name k : Str) (h : k ≠ name) :
    (GoMap.get (unsetSupportedCap st name).1.reg.available k).isSome =
      (GoMap.get st.reg.available k).isSome := by
  have hst : (unsetSupportedCap st name).1 = { st with reg := st.reg.del name } := by
    unfold unsetSupportedCap; simp only; split <;> rfl
  rw [hst]; simp [CapReg.del, mget_mdel, Ne.symm h]

private theorem set_keeps (st : DCaps) (name v k : Str) (h : k ≠ name) :
    (GoMap.get (setSupportedCap st name v).1.reg.available k).isSome =
      (GoMap.get st.reg.available k).isSome := by
  have hst : (setSupportedCap st name v).1 =
      { st with reg := { st.reg with available := GoMap.set st.reg.available name v } } := by
    unfold setSupportedCap; simp only; split <;> rfl
  rw [hst]; simp [mget_mset, Ne.symm h]

private theorem unset_gone (st : DCaps) (name : Str) :
    (GoMap.get (unsetSupportedCap st name).1.reg.available name).isSome = false ∧
    name ∉ (unsetSupportedCap st name).1.reg.enabled := by
  have hst : (unsetSupportedCap st name).1 = { st with reg := st.reg.del name } := by
    unfold unsetSupportedCap; simp only; split <;> rfl
  rw [hst]; simp [CapReg.del, mget_mdel]

private theorem set_there (st : DCaps) (name v : Str) :
    GoMap.get (setSupportedCap st name v).1.reg.available name = some v := by
  have hst : (setSupportedCap st name v).1 =
      { st with reg := { st.reg with available := GoMap.set st.reg.available name v } } := by
    unfold setSupportedCap; simp only; split <;> rfl
  rw [hst]; simp [mget_mset]

/-- Is the capability touched by `updateSupportedCaps` other than through the table of those that need
all upstreams? -/
private def special (k : Str) : Prop :=
  k = b!"sasl" ∨ k = b!"draft/account-registration" ∨ k = b!"draft/event-playback"

private theorem tail_keeps (env : CapEnv) (st : DCaps) (k : Str) (h : ¬ special k) :
    (GoMap.get (updatePlayback env (updateRegCap env (updateSasl env st).1).1).1.reg.available k).isSome =
      (GoMap.get st.reg.available k).isSome := by
  simp only [special, not_or] at h
  have h3 : ∀ st, (GoMap.get (updatePlayback env st).1.reg.available k).isSome =
      (GoMap.get st.reg.available k).isSome := by
    intro st; unfold updatePlayback
    split
    · exact set_keeps _ _ _ _ h.2.2
    · exact unset_keeps _ _ _ h.2.2
  have h2 : ∀ st, (GoMap.get (updateRegCap env st).1.reg.available k).isSome =
      (GoMap.get st.reg.available k).isSome := by
    intro st; unfold updateRegCap
    split
    · split
      · exact set_keeps _ _ _ _ h.2.1
      · exact unset_keeps _ _ _ h.2.1
    · exact unset_keeps _ _ _ h.2.1
  have h1 : ∀ st, (GoMap.get (updateSasl env st).1.reg.available k).isSome =
      (GoMap.get st.reg.available k).isSome := by
    intro st; unfold updateSasl
    split
    · split
      · exact set_keeps _ _ _ _ h.1
      · split
        · exact unset_keeps _ _ _ h.1
        · rfl
    · split
      · exact unset_keeps _ _ _ h.1
      · rfl
  rw [h3, h2, h1]

private theorem order_avail (env : CapEnv) (order : List Str) (r : DCaps × List CapReply) (k : Str) :
    (GoMap.get (order.foldl (fun r cap => capSeq r (fun st => updateNeedAll env st cap)) r).1.reg.available
      k).isSome = if k ∈ order then env.ups.all (fun uc => decide (k ∈ uc.enabled))
        else (GoMap.get r.1.reg.available k).isSome := by
  induction order generalizing r with
  | nil => simp
  | cons c order ih =>
    simp only [List.foldl_cons, ih]
    have hk : (GoMap.get (capSeq r (fun st => updateNeedAll env st c)).1.reg.available k).isSome =
        if k = c then env.ups.all (fun uc => decide (k ∈ uc.enabled))
        else (GoMap.get r.1.reg.available k).isSome := by
      show (GoMap.get (updateNeedAll env r.1 c).1.reg.available k).isSome = _
      unfold updateNeedAll
      by_cases hkc : k = c
      · subst hkc
        simp only [if_true]
        split
        · rename_i h; rw [set_there, h]; rfl
        · rename_i h; rw [(unset_gone _ _).1]; simpa using h
      · simp only [hkc, if_false]
        split
        · exact set_keeps _ _ _ _ hkc
        · exact unset_keeps _ _ _ hkc
    rw [hk]
    simp only [List.mem_cons]
    by_cases h1 : k ∈ order <;> by_cases h2 : k = c <;> simp [h1, h2]

private theorem update_avail (st : DCaps) (order : List Str) (env : CapEnv) (k : Str) (h : ¬ special k) :
    (GoMap.get (updateSupportedCaps st order env).1.reg.available k).isSome =
      if k ∈ order then env.ups.all (fun uc => decide (k ∈ uc.enabled))
        else (GoMap.get st.reg.available k).isSome := by
  unfold updateSupportedCaps
  show (GoMap.get (updatePlayback env (updateRegCap env (updateSasl env _).1).1).1.reg.available k).isSome = _
  rw [tail_keeps env _ k h, order_avail]

private theorem ls_reg (st : DCaps) (args : List Str) :
    ((capLS st args).1.registered = st.registered) ∧
    (∀ k, k ∈ (capLS st args).1.reg.enabled ↔ (k ∈ st.reg.enabled ∨
      (k = b!"cap-notify" ∧ (capLS st args).1.version ≥ 302 ∧ (capLS st args).2 ≠ [.failed]))) ∧
    (∀ k, (GoMap.get st.reg.available k).isSome = true →
      (GoMap.get (capLS st args).1.reg.available k).isSome = true) ∧
    (∀ v, (capLS st args).2.foldl clientView v = v) := by
  obtain ⟨r, ver, g, n⟩ := st
  have key : ∀ (st : DCaps) (ok : Bool),
      let res := (if ok = false then (st, [CapReply.failed]) else
        let st := if st.registered = false ∧ st.version ≥ 302 then
            { st with reg := { st.reg with available :=
                needAllDownstreamCaps.foldl (fun m k => GoMap.set m k []) st.reg.available } }
          else st
        let out := st.reg.available.map (fun p =>
          (p.1, if st.version ≥ 302 ∧ p.2 ≠ [] then some p.2 else none))
        let st := if st.version ≥ 302 then { st with reg := st.reg.setEnabled b!"cap-notify" true } else st
        let st := if st.registered = false then { st with negotiating := true } else st
        (st, [.ls out]) : DCaps × List CapReply)
      res.1.registered = st.registered ∧
      (∀ k, k ∈ res.1.reg.enabled ↔ (k ∈ st.reg.enabled ∨
        (k = b!"cap-notify" ∧ res.1.version ≥ 302 ∧ res.2 ≠ [.failed]))) ∧
      (∀ k, (GoMap.get st.reg.available k).isSome = true →
        (GoMap.get res.1.reg.available k).isSome = true) ∧
      (∀ v, res.2.foldl clientView v = v) := by
    intro st ok
    cases ok
    · simp [clientView]
    · simp only [Bool.true_eq_false, if_false]
      obtain ⟨r, ver, g, n⟩ := st
      by_cases hv : ver ≥ 302 <;> cases g <;>
        simp [hv, clientView, mem_setEnabled, setEnabled_available, sets_available] <;> grind
  cases args with
  | nil => exact key ⟨r, ver, g, n⟩ true
  | cons a as => exact key ⟨r, (atoi a).1, g, n⟩ (atoi a).2

/-! ## C25: theorems -/

/-- The part of the history a theorem is about: any CAP commands, in any order, well formed or not, any
changes of the upstream connections, registration at any point; `updateSupportedCaps` iterates over its
table in any order. -/
def AnyOp : CapOp → Prop
  | .update order _ => order.Perm needAllDownstreamCaps
  | _ => True

/-- What every step preserves. -/
private structure CapInv (st : DCaps) : Prop where
  offered : EnabledOffered st
  notifyOffered : (GoMap.get st.reg.available b!"cap-notify").isSome = true
  account : b!"soju.im/account-required" ∉ st.reg.enabled

private theorem step_inv {st : DCaps} (h : CapInv st) (op : CapOp) (hop : AnyOp op) :
    CapInv (capStep st op).1 := by
  cases op with
  | registered => exact ⟨h.offered, h.notifyOffered, h.account⟩
  | update order env =>
    have hu := update_step st order env hop
    refine ⟨hu.offered h.offered, ?_, fun hk => h.account (hu.sub _ hk)⟩
    show (GoMap.get (updateSupportedCaps st order env).1.reg.available _).isSome = true
    rw [update_avail _ _ _ _ (by unfold special; decide), if_neg (fun hm =>
      notify_not_needAll hop _ hm rfl)]
    exact h.notifyOffered
  | cap cmd args =>
    show CapInv (handleCap st cmd args).1
    unfold handleCap
    simp only
    split
    · obtain ⟨_, h2, h3, _⟩ := ls_reg st args
      refine ⟨?_, h3 _ h.notifyOffered, ?_⟩
      · intro c hc
        rcases (h2 c).1 hc with hc | ⟨rfl, _⟩
        · exact h3 _ (h.offered c hc)
        · exact h3 _ h.notifyOffered
      · intro hc
        rcases (h2 _).1 hc with hc | ⟨hc, _⟩
        · exact h.account hc
        · revert hc; decide
    · split
      · exact h
      · split
        · cases args with
          | nil => exact h
          | cons a rest =>
            rcases capREQ_spec st a rest with ⟨he, _⟩ | ⟨m, he, hm, _⟩
            · rw [he]; exact ⟨h.offered, h.notifyOffered, h.account⟩
            · rw [he]
              refine ⟨?_, ?_, ?_⟩
              · intro c hc
                show (GoMap.get (applyReq m st.reg).available c).isSome = true
                rw [applyReq_available]
                rcases ack_mem hm hc with hc | ⟨hc, _⟩
                · exact h.offered c hc
                · exact hc
              · show (GoMap.get (applyReq m st.reg).available _).isSome = true
                rw [applyReq_available]; exact h.notifyOffered
              · intro hc
                rcases ack_mem hm hc with hc | ⟨_, hc⟩
                · exact h.account hc
                · exact hc rfl
        · split
          · split
            · exact ⟨h.offered, h.notifyOffered, h.account⟩
            · exact h
          · exact h

private theorem capRun_snoc (st : DCaps) (ops : List CapOp) (op : CapOp) :
    capRun st (ops ++ [op]) = capSeq (capRun st ops) (fun st => capStep st op) := by
  simp [capRun, List.foldl_append]

private theorem init_inv (sasl : Str) (history : Bool) : CapInv (newDCaps sasl history) := by
  refine ⟨?_, ?_, ?_⟩
  · intro c hc; cases hc
  · simp [newDCaps, permanentDownstreamCaps, GoMap.get]
  · intro hc; cases hc

private theorem run_inv (sasl : Str) (history : Bool) (ops : List CapOp) (h : ∀ op ∈ ops, AnyOp op) :
    CapInv (capRun (newDCaps sasl history) ops).1 := by
  induction ops using snocInd with
  | nil => exact init_inv sasl history
  | snoc ops op ih =>
    rw [capRun_snoc]
    exact step_inv (ih (fun o ho => h o (by simp [ho]))) op (h op (by simp))

/-- **C25**: at every moment, the capabilities enabled for a client are among those offered to it; the
informational soju.im/account-required is never among them. -/
theorem C25_enabled_offered (sasl : Str) (history : Bool) (ops : List CapOp) (h : ∀ op ∈ ops, AnyOp op) :
    let st := (capRun (newDCaps sasl history) ops).1
    (∀ c ∈ st.reg.enabled, (GoMap.get st.reg.available c).isSome = true) ∧
    b!"soju.im/account-required" ∉ st.reg.enabled :=
  let i := run_inv sasl history ops h
  ⟨i.offered, i.account⟩

/-- A client that negotiates, is bound to an upstream without message-tags, then to one with it. -/
example : ∃ ops : List CapOp, (∀ op ∈ ops, AnyOp op) ∧
    (capRun (newDCaps b!"PLAIN" true) ops).1.reg.enabled = [b!"batch", b!"cap-notify"] ∧
    (capRun (newDCaps b!"PLAIN" true) (ops.take 2)).1.reg.enabled =
      [b!"message-tags", b!"batch", b!"cap-notify"] := by
  refine ⟨[.cap b!"ls" [b!"302"], .cap b!"REQ" [b!"batch Message-Tags"],
    .update needAllDownstreamCaps ⟨[⟨[b!"away-notify"], [], false⟩], none, true, true⟩], ?_, ?_, ?_⟩
  · intro op hop
    simp only [List.mem_cons, List.not_mem_nil, or_false] at hop
    rcases hop with rfl | rfl | rfl
    · trivial
    · trivial
    · exact List.Perm.refl _
  · decide +kernel
  · decide +kernel

/-- **C25**: a CAP REQ is applied entirely or not at all.  If it is refused, nothing changes; if it is
acknowledged, every capability it names without contradiction is in the state asked for and every other
one is as before. -/
theorem C25_req_atomic (st : DCaps) (cmd arg : Str) (rest : List Str) (hc : asciiUpper cmd = b!"REQ") :
    let r := handleCap st cmd (arg :: rest)
    (r.2 = [.nak arg] ∧ r.1.reg = st.reg) ∨
    (r.2 = [.ack arg] ∧ r.1.reg.available = st.reg.available ∧
      (∀ name, (∀ w ∈ fields arg, wordName w ≠ name) → (name ∈ r.1.reg.enabled ↔ name ∈ st.reg.enabled)) ∧
      (∀ w ∈ fields arg, (∀ w' ∈ fields arg, wordName w' = wordName w → wordOn w' = wordOn w) →
        (wordName w ∈ r.1.reg.enabled ↔ wordOn w = true))) := by
  have hr : handleCap st cmd (arg :: rest) = capREQ st (arg :: rest) := by
    unfold handleCap; rw [hc]; rfl
  simp only [hr]
  rcases capREQ_spec st arg rest with ⟨he, _⟩ | ⟨m, he, hm, _⟩
  · rw [he]; exact Or.inl ⟨rfl, rfl⟩
  · rw [he]
    right
    exact ⟨rfl, applyReq_available m st.reg, ack_enabled hm⟩

example : asciiUpper b!"Req" = b!"REQ" ∧
    (handleCap (newDCaps b!"PLAIN" true) b!"Req" [b!"batch  -setname"]).2 = [.ack b!"batch  -setname"] ∧
    (handleCap (newDCaps b!"PLAIN" true) b!"Req" [b!"batch foo"]).2 = [.nak b!"batch foo"] := by decide +kernel

/-- **C25**: a request is acknowledged exactly when each of its words either is already the case, or names
an offered capability other than the informational one and does not ask a client of version 302 to lose
cap-notify. -/
theorem C25_req_ack_iff (st : DCaps) (cmd arg : Str) (rest : List Str) (hc : asciiUpper cmd = b!"REQ") :
    (handleCap st cmd (arg :: rest)).2 = [.ack arg] ↔
      ∀ w ∈ fields arg,
        (wordOn w = true ↔ wordName w ∈ st.reg.enabled) ∨
        ((GoMap.get st.reg.available (wordName w)).isSome = true ∧
          wordName w ≠ b!"soju.im/account-required" ∧
          ¬ (wordName w = b!"cap-notify" ∧ wordOn w = false ∧ st.version ≥ 302)) := by
  have hr : handleCap st cmd (arg :: rest) = capREQ st (arg :: rest) := by
    unfold handleCap; rw [hc]; rfl
  have htok : ∀ w, tokenOk st w ↔ ((wordOn w = true ↔ wordName w ∈ st.reg.enabled) ∨
        ((GoMap.get st.reg.available (wordName w)).isSome = true ∧
          wordName w ≠ b!"soju.im/account-required" ∧
          ¬ (wordName w = b!"cap-notify" ∧ wordOn w = false ∧ st.version ≥ 302))) := by
    intro w
    unfold tokenOk
    rw [capToken_eq]
    simp only [CapReg.isAvailable]
    have : (wordOn w = st.reg.isEnabled (wordName w)) ↔ (wordOn w = true ↔ wordName w ∈ st.reg.enabled) := by
      rw [← isEnabled_iff]
      cases wordOn w <;> cases st.reg.isEnabled (wordName w) <;> simp
    rw [this]
    constructor
    · rintro (h | ⟨h1, h2, h3⟩)
      · exact Or.inl h
      · exact Or.inr ⟨h1, h3, fun h => h2 ⟨h.1, h.2.2, h.2.1⟩⟩
    · rintro (h | ⟨h1, h2, h3⟩)
      · exact Or.inl h
      · exact Or.inr ⟨h1, fun h => h3 ⟨h.1, h.2.2, h.2.1⟩, h2⟩
  rw [hr]
  rcases capREQ_spec st arg rest with ⟨he, w, hw, hn⟩ | ⟨m, he, hm, hall⟩
  · rw [he]
    constructor
    · intro h; cases h
    · intro h; exact absurd ((htok w).2 (h w hw)) hn
  · rw [he]
    exact ⟨fun _ w hw => (htok w).1 (hall w hw), fun _ => rfl⟩

/-- **C25 (violated)**: a request naming a capability both ways is judged against the state before it and
acknowledged, but not applied in order: after "foo -foo" the capability is enabled. -/
theorem C25_contradictory_req_violated :
    ∃ st : DCaps, ∃ arg : Str, fields arg = [b!"batch", b!"-batch"] ∧
      (handleCap st b!"REQ" [arg]).2 = [.ack arg] ∧
      b!"batch" ∈ (handleCap st b!"REQ" [arg]).1.reg.enabled :=
  ⟨newDCaps [] false, b!"batch -batch", by decide +kernel⟩

/-- **C25**: a capability that needs the support of all upstreams is offered, after every change, exactly
when all of them support it; one that is not offered any more is disabled, and every capability that was
enabled and no longer is has been announced with CAP DEL (if the client has cap-notify). -/
theorem C25_withdrawn (st : DCaps) (order : List Str) (env : CapEnv) (ho : EnabledOffered st)
    (hp : order.Perm needAllDownstreamCaps) :
    let r := updateSupportedCaps st order env
    (∀ c ∈ needAllDownstreamCaps, ((GoMap.get r.1.reg.available c).isSome = true ↔
      ∀ uc ∈ env.ups, c ∈ uc.enabled)) ∧
    (∀ c, (GoMap.get r.1.reg.available c).isSome = false → c ∉ r.1.reg.enabled) ∧
    (b!"cap-notify" ∈ st.reg.enabled →
      ∀ c ∈ st.reg.enabled, c ∉ r.1.reg.enabled → CapReply.delete c ∈ r.2) := by
  have hu := update_step st order env hp
  refine ⟨?_, ?_, ?_⟩
  · intro c hc
    rw [update_avail _ _ _ _ (by
      revert hc
      simp only [needAllDownstreamCaps, List.mem_cons, List.not_mem_nil, or_false]
      unfold special
      rintro (rfl | rfl | rfl | rfl | rfl | rfl | rfl | rfl | rfl) <;> decide), if_pos (hp.mem_iff.2 hc)]
    simp
  · intro c hc hm
    have := hu.offered ho c hm
    rw [hc] at this; cases this
  · intro hn c hc hcn
    have hv := hu.view ho hn st.reg.enabled (fun _ => Iff.rfl) c
    refine Classical.byContradiction fun hd => hcn (hv.1 ?_)
    have : ∀ (out : List CapReply) (v : List Str), (∀ a, CapReply.ack a ∉ out) → CapReply.delete c ∉ out →
        c ∈ v → c ∈ out.foldl clientView v := by
      intro out
      induction out with
      | nil => intro v _ _ h; exact h
      | cons o out ih =>
        intro v ha hd hcv
        simp only [List.foldl_cons]
        refine ih _ (fun a h => ha a (List.mem_cons_of_mem _ h)) (fun h => hd (List.mem_cons_of_mem _ h)) ?_
        cases o with
        | ack a => exact absurd List.mem_cons_self (ha a)
        | delete n =>
          simp only [clientView, List.mem_filter, decide_eq_true_eq]
          refine ⟨hcv, ?_⟩
          rintro rfl
          exact hd List.mem_cons_self
        | _ => exact hcv
    apply this _ _ _ hd hc
    intro a ha
    have noack : ∀ (r : DCaps × List CapReply), CapReply.ack a ∈ r.2 → r.2 = (updateSupportedCaps st order env).2 →
        False := by
      intro r h1 h2
      rw [h2] at h1
      have hset : ∀ st n v, CapReply.ack a ∉ (setSupportedCap st n v).2 := by
        intro st n v; unfold setSupportedCap; simp only; split <;> simp
      have hunset : ∀ st n, CapReply.ack a ∉ (unsetSupportedCap st n).2 := by
        intro st n; unfold unsetSupportedCap; simp only; split <;> simp
      have hseq : ∀ (r : DCaps × List CapReply) (f : DCaps → DCaps × List CapReply), CapReply.ack a ∉ r.2 →
          (∀ st, CapReply.ack a ∉ (f st).2) → CapReply.ack a ∉ (capSeq r f).2 := by
        intro r f h1 h2
        simp [capSeq, h1, h2]
      have hord : ∀ (order : List Str) (r : DCaps × List CapReply), CapReply.ack a ∉ r.2 →
          CapReply.ack a ∉ (order.foldl (fun r cap => capSeq r (fun st => updateNeedAll env st cap)) r).2 := by
        intro order
        induction order with
        | nil => intro r h; exact h
        | cons c order ih =>
          intro r h
          simp only [List.foldl_cons]
          apply ih
          apply hseq _ _ h
          intro st; unfold updateNeedAll; split
          · exact hset _ _ _
          · exact hunset _ _
      unfold updateSupportedCaps at h1
      refine hseq _ _ (hseq _ _ (hseq _ _ (hord order (st, []) (by simp)) ?_) ?_) ?_ h1
      · intro st; unfold updateSasl
        split
        · split
          · exact hset _ _ _
          · split
            · exact hunset _ _
            · simp
        · split
          · exact hunset _ _
          · simp
      · intro st; unfold updateRegCap
        split
        · split
          · exact hset _ _ _
          · exact hunset _ _
        · exact hunset _ _
      · intro st; unfold updatePlayback
        split
        · exact hset _ _ _
        · exact hunset _ _
    exact noack _ ha rfl

example : ∃ (st : DCaps) (env : CapEnv), EnabledOffered st ∧
    b!"cap-notify" ∈ st.reg.enabled ∧ b!"message-tags" ∈ st.reg.enabled ∧
    b!"message-tags" ∉ (updateSupportedCaps st needAllDownstreamCaps env).1.reg.enabled := by
  refine ⟨(capRun (newDCaps [] true) [.cap b!"LS" [b!"302"], .cap b!"REQ" [b!"message-tags"]]).1,
    ⟨[⟨[b!"away-notify"], [], false⟩], none, false, true⟩, ?_, ?_, ?_, ?_⟩
  · exact (run_inv [] true _ (by intro op hop; simp at hop; rcases hop with rfl | rfl <;> trivial)).offered
  · decide +kernel
  · decide +kernel
  · decide +kernel

/-- What holds of a client of version 302 at every moment. -/
private theorem knows302 (sasl : Str) (history : Bool) (v : Str) (n : Int) (ops : List CapOp)
    (hv : parseInt64 v = some n) (hn : n ≥ 302) (h : ∀ op ∈ ops, Client302 op) :
    let start := (handleCap (newDCaps sasl history) b!"LS" [v]).1
    CapInv (capRun start ops).1 ∧ (capRun start ops).1.version ≥ 302 ∧
      b!"cap-notify" ∈ (capRun start ops).1.reg.enabled ∧
      ∀ c, c ∈ (capRun start ops).2.foldl clientView [b!"cap-notify"] ↔ c ∈ (capRun start ops).1.reg.enabled := by
  intro start
  have anyOf : ∀ op, Client302 op → AnyOp op := by
    intro op; cases op <;> simp [Client302, AnyOp]
  have atoi_v : ∀ (a : Str) (n : Int), parseInt64 a = some n → atoi a = (n, true) := by
    intro a n h; simp [atoi, h]
  have hstart : start = (capLS (newDCaps sasl history) [v]).1 := by
    show (handleCap _ _ _).1 = _
    unfold handleCap; rfl
  have lsver : ∀ (st : DCaps) (a : Str) (as : List Str) (n : Int), parseInt64 a = some n →
      (capLS st (a :: as)).1.version = n ∧ (capLS st (a :: as)).2 ≠ [.failed] := by
    intro st a as n h
    unfold capLS
    simp only [atoi_v a n h]
    obtain ⟨r, ver, g, ng⟩ := st
    simp only [Bool.true_eq_false, if_false]
    by_cases h1 : n ≥ 302 <;> cases g <;> simp [h1]
  induction ops using snocInd with
  | nil =>
    have hinv : CapInv start := step_inv (init_inv sasl history) (.cap b!"LS" [v]) trivial
    obtain ⟨_, h2, _, _⟩ := ls_reg (newDCaps sasl history) [v]
    have hver := lsver (newDCaps sasl history) v [] n hv
    rw [← hstart] at h2 hver
    refine ⟨hinv, by show start.version ≥ 302; rw [hver.1]; exact hn, ?_, ?_⟩
    · show _ ∈ start.reg.enabled
      exact (h2 _).2 (Or.inr ⟨rfl, by rw [hver.1]; exact hn, hver.2⟩)
    · intro c
      show c ∈ [b!"cap-notify"] ↔ c ∈ start.reg.enabled
      rw [h2 c, hver.1]
      have h0 : c ∉ (newDCaps sasl history).reg.enabled := by simp [newDCaps]
      simp [hver.2, hn, h0]
  | snoc ops op ih =>
    obtain ⟨hi, hver, hnot, hview⟩ := ih (fun o ho => h o (by simp [ho]))
    have hop := h op (by simp)
    rw [capRun_snoc]
    generalize capRun start ops = q at hi hver hnot hview
    obtain ⟨st, out⟩ := q
    simp only [capSeq] at hi hver hnot hview ⊢
    refine ⟨step_inv hi op (anyOf op hop), ?_⟩
    rw [List.foldl_append]
    generalize hvw : out.foldl clientView [b!"cap-notify"] = vw at hview ⊢
    cases op with
    | registered => exact ⟨hver, hnot, hview⟩
    | update order env =>
      have hu := update_step st order env hop
      refine ⟨?_, hu.notify hnot, hu.view hi.offered hnot vw hview⟩
      show (updateSupportedCaps st order env).1.version ≥ 302
      rw [hu.version]; exact hver
    | cap cmd args =>
      show (handleCap st cmd args).1.version ≥ 302 ∧ _ ∈ (handleCap st cmd args).1.reg.enabled ∧
        ∀ c, c ∈ (handleCap st cmd args).2.foldl clientView vw ↔ c ∈ (handleCap st cmd args).1.reg.enabled
      unfold handleCap
      simp only
      split
      · rename_i hls
        obtain ⟨_, h2, _, h4⟩ := ls_reg st args
        have hver' : (capLS st args).1.version ≥ 302 := by
          cases args with
          | nil =>
            unfold capLS
            obtain ⟨r, ver, g, ng⟩ := st
            simp only [Bool.true_eq_false, if_false]
            simp only at hver
            cases g <;> simp [hver]
          | cons a as =>
            obtain ⟨v', h5, h6⟩ := hop.1 hls a (by simp)
            rw [(lsver st a as v' h5).1]; exact h6
        refine ⟨hver', (h2 _).2 (Or.inl hnot), ?_⟩
        intro c
        rw [h4, hview, h2]
        constructor
        · exact Or.inl
        · rintro (h | ⟨rfl, _⟩)
          · exact h
          · exact hnot
      · split
        · exact ⟨hver, hnot, hview⟩
        · split
          · rename_i hreq
            cases args with
            | nil => exact ⟨hver, hnot, hview⟩
            | cons a rest =>
              rcases capREQ_spec st a rest with ⟨he, _⟩ | ⟨m, he, hm, _⟩
              · rw [he]; exact ⟨hver, hnot, hview⟩
              · rw [he]
                refine ⟨hver, ack_notify hm hver hnot, ?_⟩
                have hcons := hop.2 hreq a (by simp)
                obtain ⟨ha, hb⟩ := ack_enabled hm
                intro c
                show c ∈ clientView vw (.ack a) ↔ c ∈ (applyReq m st.reg).enabled
                have fold : ∀ (ws : List Str) (v : List Str),
                    (∀ w ∈ ws, ∀ w' ∈ ws, wordName w' = wordName w → wordOn w' = wordOn w) →
                    ((∀ w ∈ ws, wordName w ≠ c) → (c ∈ ws.foldl (fun v w =>
                      if wordOn w then wordName w :: v else v.filter (fun n => decide (n ≠ wordName w))) v ↔ c ∈ v)) ∧
                    (∀ w ∈ ws, wordName w = c → (c ∈ ws.foldl (fun v w =>
                      if wordOn w then wordName w :: v else v.filter (fun n => decide (n ≠ wordName w))) v ↔
                        wordOn w = true)) := by
                  intro ws
                  induction ws using snocInd with
                  | nil => intro v _; exact ⟨fun _ => Iff.rfl, fun w hw => by cases hw⟩
                  | snoc ws w ih =>
                    intro v hc
                    obtain ⟨i1, i2⟩ := ih v (fun w hw w' hw' => hc w (by simp [hw]) w' (by simp [hw']))
                    rw [List.foldl_append]
                    simp only [List.foldl_cons, List.foldl_nil]
                    constructor
                    · intro hne
                      rw [← i1 (fun w hw => hne w (by simp [hw]))]
                      have := hne w (by simp)
                      split <;> simp [Ne.symm this]
                    · intro w' hw' hname
                      by_cases hlast : wordName w = c
                      · have : wordOn w' = wordOn w := hc w (by simp) w' hw' (by rw [hname, hlast])
                        rw [this]
                        cases wordOn w <;> simp [hlast]
                      · have hw'' : w' ∈ ws := by
                          rcases List.mem_append.1 hw' with h | h
                          · exact h
                          · simp at h; subst h; exact absurd hname hlast
                        rw [← i2 w' hw'' hname]
                        split <;> simp [Ne.symm hlast]
                obtain ⟨f1, f2⟩ := fold (fields a) vw hcons
                unfold clientView
                by_cases hmem : ∃ w ∈ fields a, wordName w = c
                · obtain ⟨w, hw, rfl⟩ := hmem
                  rw [f2 w hw rfl, hb w hw (fun w' hw' => hcons w hw w' hw')]
                · have hne : ∀ w ∈ fields a, wordName w ≠ c := fun w hw he => hmem ⟨w, hw, he⟩
                  rw [f1 hne, ha c hne, hview]
          · split
            · split
              · exact ⟨hver, hnot, hview⟩
              · exact ⟨hver, hnot, hview⟩
            · exact ⟨hver, hnot, hview⟩

/-- **C25**: a client that spoke version 302 or later, and never asks for a capability both ways in one
request, always knows exactly what is enabled: following the ACK and DEL messages it receives gives the
set of enabled capabilities, cap-notify among them, whatever upstreams do. -/
theorem C25_client_knows_partial (sasl : Str) (history : Bool) (v : Str) (n : Int) (ops : List CapOp)
    (hv : parseInt64 v = some n) (hn : n ≥ 302) (h : ∀ op ∈ ops, Client302 op) :
    let start := (handleCap (newDCaps sasl history) b!"LS" [v]).1
    let r := capRun start ops
    b!"cap-notify" ∈ r.1.reg.enabled ∧
    ∀ c, c ∈ r.1.reg.enabled ↔ c ∈ r.2.foldl clientView [b!"cap-notify"] := by
  intro start r
  have hs := knows302 sasl history v n ops hv hn h
  exact ⟨hs.2.2.1, fun c => (hs.2.2.2 c).symm⟩

example : ∃ ops : List CapOp, (∀ op ∈ ops, Client302 op) ∧
    ((capRun (handleCap (newDCaps [] true) b!"LS" [b!"302"]).1 ops).2.filter
      (fun r => r matches .delete _)).length = 1 := by
  refine ⟨[.cap b!"REQ" [b!"message-tags batch"], .registered,
    .update needAllDownstreamCaps ⟨[⟨needAllDownstreamCaps.erase b!"message-tags", [], true⟩],
      some ⟨needAllDownstreamCaps.erase b!"message-tags", [], true⟩, true, true⟩], ?_, ?_⟩
  · intro op hop
    simp only [List.mem_cons, List.not_mem_nil, or_false] at hop
    rcases hop with rfl | rfl | rfl
    · refine ⟨by decide, ?_⟩
      intro _ a ha
      simp only [List.head?_cons, Option.mem_some_iff] at ha
      subst ha
      unfold ConsistentReq
      decide +kernel
    · trivial
    · exact List.Perm.refl _
  · decide +kernel

/-- What a client believes is offered to it, with the values, after a message. -/
def offersView (view : Str → Option Str) : CapReply → Str → Option Str
  | .ls caps => fun c => (caps.find? (fun p => decide (p.1 = c))).map (fun p => p.2.getD [])
  | .new name value => fun c => if c = name then some (value.getD []) else view c
  | .delete name => fun c => if c = name then none else view c
  | _ => view

/-- A change of what is offered that a client with version 302 and cap-notify can follow. -/
private def Followed (st st' : DCaps) (out : List CapReply) : Prop :=
  st.version ≥ 302 → b!"cap-notify" ∈ st.reg.enabled →
    (st'.version ≥ 302 ∧ b!"cap-notify" ∈ st'.reg.enabled) ∧
    ∀ w : Str → Option Str, (∀ c, w c = GoMap.get st.reg.available c) →
      ∀ c, out.foldl offersView w c = GoMap.get st'.reg.available c

private theorem Followed.refl (st : DCaps) : Followed st st [] := fun h1 h2 => ⟨⟨h1, h2⟩, fun _ hw => hw⟩

private theorem followed_seq {a : DCaps} {r : DCaps × List CapReply} {f : DCaps → DCaps × List CapReply}
    (h : Followed a r.1 r.2) (hf : ∀ st, Followed st (f st).1 (f st).2) :
    Followed a (capSeq r f).1 (capSeq r f).2 := by
  intro h1 h2
  obtain ⟨⟨h3, h4⟩, h5⟩ := h h1 h2
  obtain ⟨h6, h7⟩ := hf r.1 h3 h4
  refine ⟨h6, fun w hw c => ?_⟩
  show (r.2 ++ (f r.1).2).foldl offersView w c = _
  rw [List.foldl_append]
  exact h7 _ (fun c => h5 w hw c) c

private theorem set_followed (st : DCaps) (name value : Str) :
    Followed st (setSupportedCap st name value).1 (setSupportedCap st name value).2 := by
  intro h1 h2
  have he : ({ st.reg with available := GoMap.set st.reg.available name value } : CapReg).isEnabled b!"cap-notify" = true :=
    isEnabled_iff.2 h2
  unfold setSupportedCap
  simp only [he, Bool.true_eq_false, false_or]
  by_cases hc : GoMap.get st.reg.available name = some value
  · simp only [hc, ne_eq, not_true_eq_false, decide_false, if_true]
    refine ⟨⟨h1, h2⟩, fun w hw c => ?_⟩
    rw [List.foldl_nil, hw, mget_mset]
    by_cases e : name = c
    · rw [if_pos e, ← e, hc]
    · rw [if_neg e]
  · simp only [hc, ne_eq, not_false_eq_true, decide_true, Bool.true_eq_false, if_false]
    refine ⟨⟨h1, h2⟩, fun w hw c => ?_⟩
    simp only [List.foldl_cons, List.foldl_nil, offersView, mget_mset, hw]
    by_cases e : c = name
    · rw [if_pos e, if_pos e.symm]
      by_cases hv : value = []
      · simp [hv]
      · simp [hv, h1]
    · rw [if_neg e, if_neg (Ne.symm e)]

private theorem unset_followed (st : DCaps) (name : Str) (hn : name ≠ b!"cap-notify") :
    Followed st (unsetSupportedCap st name).1 (unsetSupportedCap st name).2 := by
  intro h1 h2
  have he : (st.reg.del name).isEnabled b!"cap-notify" = true := isEnabled_iff.2 (by
    rw [mem_del]; exact ⟨Ne.symm hn, h2⟩)
  have h3 : b!"cap-notify" ∈ (st.reg.del name).enabled := isEnabled_iff.1 he
  unfold unsetSupportedCap
  simp only [he, Bool.true_eq_false, false_or]
  by_cases hc : st.reg.isAvailable name = false
  · simp only [hc, if_true]
    refine ⟨⟨h1, h3⟩, fun w hw c => ?_⟩
    rw [List.foldl_nil, hw]
    show _ = GoMap.get (GoMap.del st.reg.available name) c
    rw [mget_mdel]
    by_cases e : name = c
    · rw [if_pos e, ← e]
      simpa [CapReg.isAvailable] using hc
    · rw [if_neg e]
  · rw [if_neg hc]
    refine ⟨⟨h1, h3⟩, fun w hw c => ?_⟩
    simp only [List.foldl_cons, List.foldl_nil, offersView, hw]
    show _ = GoMap.get (GoMap.del st.reg.available name) c
    rw [mget_mdel]
    by_cases e : c = name
    · rw [if_pos e, if_pos e.symm]
    · rw [if_neg e, if_neg (Ne.symm e)]

private theorem update_followed (st : DCaps) (order : List Str) (env : CapEnv) (ho : order.Perm needAllDownstreamCaps) :
    Followed st (updateSupportedCaps st order env).1 (updateSupportedCaps st order env).2 := by
  unfold updateSupportedCaps
  refine followed_seq (followed_seq (followed_seq ?_ ?_) ?_) ?_
  · have hne := notify_not_needAll ho
    have : ∀ (l : List Str) (r : DCaps × List CapReply), (∀ c ∈ l, c ≠ b!"cap-notify") → Followed st r.1 r.2 →
        Followed st (l.foldl (fun r cap => capSeq r (fun st => updateNeedAll env st cap)) r).1
          (l.foldl (fun r cap => capSeq r (fun st => updateNeedAll env st cap)) r).2 := by
      intro l
      induction l with
      | nil => intro r _ h; exact h
      | cons c l ih =>
        intro r hl h
        rw [List.foldl_cons]
        refine ih _ (fun c hc => hl c (List.mem_cons_of_mem _ hc)) (followed_seq h (fun st => ?_))
        unfold updateNeedAll
        split
        · exact set_followed _ _ _
        · exact unset_followed _ _ (hl c List.mem_cons_self)
    exact this order (st, []) hne (Followed.refl st)
  · intro st
    unfold updateSasl
    split
    · split
      · exact set_followed _ _ _
      · split
        · exact unset_followed _ _ (by decide)
        · exact Followed.refl st
    · split
      · exact unset_followed _ _ (by decide)
      · exact Followed.refl st
  · intro st
    unfold updateRegCap
    split
    · split
      · exact set_followed _ _ _
      · exact unset_followed _ _ (by decide)
    · exact unset_followed _ _ (by decide)
  · intro st
    unfold updatePlayback
    split
    · exact set_followed _ _ _
    · exact unset_followed _ _ (by decide)

private theorem find_listed (ver : Int) (hv : ver ≥ 302) (m : GoMap Str Str) (c : Str) :
    ((m.map (fun p => (p.1, if ver ≥ 302 ∧ p.2 ≠ [] then some p.2 else none))).find? (fun p => decide (p.1 = c))).map
      (fun p => p.2.getD []) = GoMap.get m c := by
  induction m with
  | nil => rfl
  | cons a m ih =>
    obtain ⟨k, x⟩ := a
    rw [List.map_cons, GoMap.get]
    by_cases h : k = c
    · rw [List.find?_cons_of_pos (by simpa using h), if_pos h]
      by_cases hx : x = []
      · simp [hx]
      · simp [hx, hv]
    · rw [List.find?_cons_of_neg (by simpa using h), if_neg h]
      exact ih

private theorem ls_listed (st : DCaps) (args : List Str) (hok : ∀ a ∈ args.head?, (atoi a).2 = true)
    (hver : (capLS st args).1.version ≥ 302) (w : Str → Option Str) (c : Str) :
    (capLS st args).2.foldl offersView w c = GoMap.get (capLS st args).1.reg.available c := by
  have key : ∀ st : DCaps, st.version ≥ 302 →
      let res : DCaps × List CapReply :=
        (let st := if st.registered = false ∧ st.version ≥ 302 then
            { st with reg := { st.reg with available :=
                needAllDownstreamCaps.foldl (fun m k => GoMap.set m k []) st.reg.available } }
          else st
        let out := st.reg.available.map (fun p =>
          (p.1, if st.version ≥ 302 ∧ p.2 ≠ [] then some p.2 else none))
        let st := if st.version ≥ 302 then { st with reg := st.reg.setEnabled b!"cap-notify" true } else st
        let st := if st.registered = false then { st with negotiating := true } else st
        (st, [.ls out]))
      res.2.foldl offersView w c = GoMap.get res.1.reg.available c := by
    intro st h
    obtain ⟨r, ver, g, n⟩ := st
    simp only at h
    have := fun m => find_listed ver h m c
    simp only [ge_iff_le] at this h
    cases g <;> simp [h, offersView, setEnabled_available] <;> simpa [h] using this _
  cases args with
  | nil =>
    refine key st ?_
    unfold capLS at hver
    obtain ⟨r, ver, g, n⟩ := st
    simp only [Bool.true_eq_false, if_false] at hver
    by_cases h : ver ≥ 302
    · exact h
    · cases g <;> simp [h] at hver
  | cons a as =>
    have ha : (atoi a).2 = true := hok a (by simp)
    have e : capLS st (a :: as) = capLS { st with version := (atoi a).1 } [] := by
      unfold capLS
      simp only [ha]
    rw [e] at hver ⊢
    refine key _ ?_
    unfold capLS at hver
    obtain ⟨r, ver, g, n⟩ := st
    simp only [Bool.true_eq_false, if_false] at hver ⊢
    by_cases h : (atoi a).1 ≥ 302
    · exact h
    · cases g <;> simp [h] at hver

/-- **C25**: a client that spoke version 302 or later always knows exactly what is offered to it, and with which values:
following the answers to CAP LS and the NEW and DEL messages it receives gives the capabilities it can ask for, whatever
upstreams do. -/
theorem C25_offers_known (sasl : Str) (history : Bool) (v : Str) (n : Int) (ops : List CapOp)
    (hv : parseInt64 v = some n) (hn : n ≥ 302) (h : ∀ op ∈ ops, Client302 op) :
    let first := handleCap (newDCaps sasl history) b!"LS" [v]
    let r := capRun first.1 ops
    ∀ c, GoMap.get r.1.reg.available c = (first.2 ++ r.2).foldl offersView (fun _ => none) c := by
  intro first r
  have atoi_v : ∀ (a : Str) (n : Int), parseInt64 a = some n → atoi a = (n, true) := by
    intro a n h; simp [atoi, h]
  have hfirst : first = capLS (newDCaps sasl history) [v] := by
    show handleCap _ _ _ = _
    unfold handleCap; rfl
  show ∀ c, GoMap.get (capRun first.1 ops).1.reg.available c = (first.2 ++ (capRun first.1 ops).2).foldl offersView (fun _ => none) c
  clear r
  induction ops using snocInd with
  | nil =>
    intro c
    show GoMap.get first.1.reg.available c = (first.2 ++ []).foldl offersView _ c
    have hk := knows302 sasl history v n [] hv hn (by simp)
    have hver : first.1.version ≥ 302 := hk.2.1
    rw [List.append_nil]
    rw [hfirst] at hver ⊢
    exact (ls_listed _ _ (fun a ha => by
      simp only [List.head?_cons, Option.mem_some_iff] at ha
      subst ha
      rw [atoi_v _ n hv]) hver _ c).symm
  | snoc ops op ih =>
    have hops : ∀ o ∈ ops, Client302 o := fun o ho => h o (by simp [ho])
    have ih := ih hops
    obtain ⟨-, hver, hnot, -⟩ := knows302 sasl history v n ops hv hn hops
    have hafter := knows302 sasl history v n (ops ++ [op]) hv hn h
    have hop := h op (by simp)
    intro c
    simp only at hafter
    change CapInv (capRun first.1 (ops ++ [op])).1 ∧ (capRun first.1 (ops ++ [op])).1.version ≥ 302 ∧ _ at hafter
    change (capRun first.1 ops).1.version ≥ 302 at hver
    change _ ∈ (capRun first.1 ops).1.reg.enabled at hnot
    rw [capRun_snoc] at hafter ⊢
    generalize capRun first.1 ops = q at ih hver hnot hafter ⊢
    obtain ⟨st, out⟩ := q
    simp only [capSeq] at ih hver hnot hafter ⊢
    rw [← List.append_assoc, List.foldl_append]
    generalize hw : (first.2 ++ out).foldl offersView (fun _ => none) = w at ih ⊢
    cases op with
    | registered => exact ih c
    | update order env =>
      exact (((update_followed st order env hop) hver hnot).2 w (fun c => (ih c).symm) c).symm
    | cap cmd args =>
      have hver2 := hafter.2.1
      simp only [capStep] at hver2 ⊢
      unfold handleCap at hver2 ⊢
      simp only at hver2 ⊢
      split
      · rename_i hls
        rw [if_pos hls] at hver2
        refine (ls_listed st args ?_ hver2 w c).symm
        intro a ha
        obtain ⟨v', h5, _⟩ := hop.1 hls a ha
        rw [atoi_v a v' h5]
      · split
        · exact ih c
        · split
          · cases args with
            | nil => exact ih c
            | cons a rest =>
              rcases capREQ_spec st a rest with ⟨he, _⟩ | ⟨m, he, hm, _⟩
              · rw [he]; exact ih c
              · rw [he]
                show GoMap.get (applyReq m st.reg).available c = _
                rw [applyReq_available]
                exact ih c
          · split
            · split
              · exact ih c
              · exact ih c
            · exact ih c

example : ((capRun (handleCap (newDCaps [] true) b!"LS" [b!"302"]).1 [.registered,
      .update needAllDownstreamCaps ⟨[⟨[b!"away-notify"], b!"before-connect,email-required", true⟩],
        some ⟨[b!"away-notify", b!"draft/account-registration"], b!"before-connect,email-required", true⟩, true, true⟩]).2.filter
      (fun r => r matches .new _ _)) =
    [.new b!"sasl" (some b!"PLAIN,ANONYMOUS"), .new b!"draft/account-registration" (some b!"email-required"),
     .new b!"draft/event-playback" none] := by decide +kernel

private theorem set_get (st : DCaps) (name v k : Str) :
    GoMap.get (setSupportedCap st name v).1.reg.available k = if name = k then some v else GoMap.get st.reg.available k := by
  have hst : (setSupportedCap st name v).1 =
      { st with reg := { st.reg with available := GoMap.set st.reg.available name v } } := by
    unfold setSupportedCap; simp only; split <;> rfl
  rw [hst, mget_mset]

private theorem unset_get (st : DCaps) (name k : Str) :
    GoMap.get (unsetSupportedCap st name).1.reg.available k = if name = k then none else GoMap.get st.reg.available k := by
  have hst : (unsetSupportedCap st name).1 = { st with reg := st.reg.del name } := by
    unfold unsetSupportedCap; simp only; split <;> rfl
  rw [hst]
  show GoMap.get (GoMap.del st.reg.available name) k = _
  rw [mget_mdel]

private theorem playback_get (env : CapEnv) (st : DCaps) (k : Str) :
    GoMap.get (updatePlayback env st).1.reg.available k = if b!"draft/event-playback" = k then
      (if env.history ∧ env.bound then some [] else none) else GoMap.get st.reg.available k := by
  unfold updatePlayback
  split
  · exact set_get _ _ _ _
  · exact unset_get _ _ _

private theorem regcap_get (env : CapEnv) (st : DCaps) (k : Str) :
    GoMap.get (updateRegCap env st).1.reg.available k = if b!"draft/account-registration" = k then
      (env.up.bind (fun uc => if b!"draft/account-registration" ∈ uc.enabled then some (stripBeforeConnect uc.registration)
        else none)) else GoMap.get st.reg.available k := by
  unfold updateRegCap
  split
  · rename_i uc he
    split
    · rename_i h
      rw [set_get, he]
      simp only [Option.bind_some, if_pos h]
    · rename_i h
      rw [unset_get, he]
      simp only [Option.bind_some, if_neg h]
  · rename_i he
    rw [unset_get, he]
    rfl

/-- **C25**: to a client of a network, "sasl" is offered exactly if the network has a connection that supports the PLAIN
mechanism; "draft/account-registration" exactly if it has one with this capability, with the values it has there without
the first "before-connect"; "draft/event-playback" exactly if the client is bound to a network and messages are stored. -/
theorem C25_values (st : DCaps) (order : List Str) (env : CapEnv) (hb : env.bound = true) :
    let r := (updateSupportedCaps st order env).1.reg.available
    (GoMap.get r b!"sasl" = match env.up with
      | some uc => if uc.saslPlain = true then some b!"PLAIN,ANONYMOUS" else none
      | none => none) ∧
    ((∀ uc, env.up = some uc → b!"draft/account-registration" ∉ uc.enabled) →
      GoMap.get r b!"draft/account-registration" = none) ∧
    (∀ uc (values : List Str), env.up = some uc → b!"draft/account-registration" ∈ uc.enabled → values ≠ [] →
      (∀ v ∈ values, 44 ∉ v) → uc.registration = joinStr b!"," values →
      GoMap.get r b!"draft/account-registration" = some (joinStr b!"," (values.erase b!"before-connect"))) ∧
    GoMap.get r b!"draft/event-playback" = (if env.history = true then some [] else none) := by
  intro r
  have hr : ∀ k, GoMap.get r k = GoMap.get (updatePlayback env (updateRegCap env (updateSasl env
      (order.foldl (fun r cap => capSeq r (fun st => updateNeedAll env st cap)) (st, [])).1).1).1).1.reg.available k :=
    fun _ => rfl
  refine ⟨?_, ?_, ?_, ?_⟩
  · rw [hr, playback_get, if_neg (by decide), regcap_get, if_neg (by decide)]
    unfold updateSasl
    cases env.up with
    | none =>
      simp only [if_pos hb]
      rw [unset_get, if_pos rfl]
    | some uc =>
      by_cases h : uc.saslPlain = true
      · simp only [if_pos h]
        rw [set_get, if_pos rfl]
      · simp only [if_neg h, if_pos hb]
        rw [unset_get, if_pos rfl]
  · intro h
    rw [hr, playback_get, if_neg (by decide), regcap_get, if_pos rfl]
    cases he : env.up with
    | none => rfl
    | some uc => simp only [Option.bind_some, if_neg (h uc he)]
  · intro uc values he hen hne hcomma hval
    rw [hr, playback_get, if_neg (by decide), regcap_get, if_pos rfl, he]
    simp only [Option.bind_some, if_pos hen]
    unfold stripBeforeConnect
    rw [hval, splitByte_joinStr 44 values hne hcomma]
  · rw [hr, playback_get, if_pos rfl]
    simp [hb]

example : let env : CapEnv := ⟨[], some ⟨[b!"draft/account-registration"], b!"before-connect,email-required", true⟩, true, true⟩
    b!"before-connect,email-required" = joinStr b!"," [b!"before-connect", b!"email-required"] ∧
    GoMap.get (updateSupportedCaps (newDCaps [] true) needAllDownstreamCaps env).1.reg.available b!"draft/account-registration" =
      some b!"email-required" := by decide +kernel

private theorem cap_registered (st : DCaps) (hr : st.registered = true) (cmd : Str) (args : List Str) :
    (handleCap st cmd args).1.registered = true ∧ (handleCap st cmd args).1.reg.available = st.reg.available := by
  unfold handleCap
  simp only
  split
  · have key : ∀ st : DCaps, st.registered = true → ∀ ok : Bool,
        let res := (if ok = false then (st, [CapReply.failed]) else
          let st := if st.registered = false ∧ st.version ≥ 302 then
              { st with reg := { st.reg with available :=
                  needAllDownstreamCaps.foldl (fun m k => GoMap.set m k []) st.reg.available } }
            else st
          let out := st.reg.available.map (fun p =>
            (p.1, if st.version ≥ 302 ∧ p.2 ≠ [] then some p.2 else none))
          let st := if st.version ≥ 302 then { st with reg := st.reg.setEnabled b!"cap-notify" true } else st
          let st := if st.registered = false then { st with negotiating := true } else st
          (st, [.ls out]) : DCaps × List CapReply)
        res.1.registered = true ∧ res.1.reg.available = st.reg.available := by
      intro st h ok
      obtain ⟨r, ver, g, n⟩ := st
      simp only at h
      subst h
      cases ok
      · simp
      · by_cases hv : ver ≥ 302 <;> simp [hv, setEnabled_available]
    unfold capLS
    cases args with
    | nil => exact key st hr true
    | cons a as => exact key { st with version := (atoi a).1 } hr (atoi a).2
  · split
    · exact ⟨hr, rfl⟩
    · split
      · cases args with
        | nil => exact ⟨hr, rfl⟩
        | cons a rest =>
          rcases capREQ_spec st a rest with ⟨he, _⟩ | ⟨m, he, _, _⟩
          · rw [he]; simp [hr]
          · rw [he]; simp [hr, applyReq_available]
      · split
        · rw [if_neg (by simp [hr])]
          exact ⟨hr, rfl⟩
        · exact ⟨hr, rfl⟩

private theorem fold_registered {r : DCaps × List CapReply} {f : DCaps → DCaps × List CapReply}
    (h : r.1.registered = true) (hf : ∀ st : DCaps, st.registered = true → (f st).1.registered = true) :
    (capSeq r f).1.registered = true := hf r.1 h

private theorem set_registered (st : DCaps) (name v : Str) : (setSupportedCap st name v).1.registered = st.registered := by
  unfold setSupportedCap; simp only; split <;> rfl

private theorem unset_registered (st : DCaps) (name : Str) : (unsetSupportedCap st name).1.registered = st.registered := by
  unfold unsetSupportedCap; simp only; split <;> rfl

private theorem update_registered (st : DCaps) (h : st.registered = true) (order : List Str) (env : CapEnv) :
    (updateSupportedCaps st order env).1.registered = true := by
  unfold updateSupportedCaps
  refine fold_registered (fold_registered (fold_registered ?_ ?_) ?_) ?_
  · have : ∀ (l : List Str) (r : DCaps × List CapReply), r.1.registered = true →
        (l.foldl (fun r cap => capSeq r (fun st => updateNeedAll env st cap)) r).1.registered = true := by
      intro l
      induction l with
      | nil => intro r h; exact h
      | cons c l ih =>
        intro r h
        rw [List.foldl_cons]
        refine ih _ (fold_registered h (fun st hs => ?_))
        unfold updateNeedAll
        split
        · rw [set_registered]; exact hs
        · rw [unset_registered]; exact hs
    exact this order (st, []) h
  · intro st hs
    unfold updateSasl
    split
    · split
      · rw [set_registered]; exact hs
      · split
        · rw [unset_registered]; exact hs
        · exact hs
    · split
      · rw [unset_registered]; exact hs
      · exact hs
  · intro st hs
    unfold updateRegCap
    split
    · split
      · rw [set_registered]; exact hs
      · rw [unset_registered]; exact hs
    · rw [unset_registered]; exact hs
  · intro st hs
    unfold updatePlayback
    split
    · rw [set_registered]; exact hs
    · rw [unset_registered]; exact hs

/-- **C25**: once a client is registered, only changes of the upstream connections change what is offered to it: after
any such change, and whatever CAP commands it sends before and afterwards, a capability that needs all upstreams is
offered exactly when all of them support it. -/
theorem C25_offered_registered (st : DCaps) (before : List CapOp) (order : List Str) (env : CapEnv)
    (caps : List (Str × List Str)) (hp : order.Perm needAllDownstreamCaps) :
    let r := (capRun st (.registered :: before ++ .update order env :: caps.map (fun c => .cap c.1 c.2))).1
    ∀ c ∈ needAllDownstreamCaps, ((GoMap.get r.reg.available c).isSome = true ↔ ∀ uc ∈ env.ups, c ∈ uc.enabled) := by
  intro r c hc
  have hreg : ∀ ops : List CapOp, ∀ q : DCaps × List CapReply, q.1.registered = true →
      (ops.foldl (fun r op => capSeq r (fun st => capStep st op)) q).1.registered = true := by
    intro ops
    induction ops with
    | nil => intro q h; exact h
    | cons op ops ih =>
      intro q h
      rw [List.foldl_cons]
      refine ih _ (fold_registered h (fun st hs => ?_))
      cases op with
      | registered => rfl
      | update order env => exact update_registered st hs order env
      | cap cmd args => exact (cap_registered st hs cmd args).1
  have hcaps : ∀ l : List (Str × List Str), ∀ q : DCaps × List CapReply, q.1.registered = true →
      ((l.map (fun c => CapOp.cap c.1 c.2)).foldl (fun r op => capSeq r (fun st => capStep st op)) q).1.reg.available =
        q.1.reg.available := by
    intro l
    induction l with
    | nil => intro q _; rfl
    | cons a l ih =>
      intro q h
      rw [List.map_cons, List.foldl_cons]
      have := cap_registered q.1 h a.1 a.2
      have hq : (capSeq q fun st => capStep st (CapOp.cap a.1 a.2)).1.registered = true := this.1
      rw [ih _ hq]
      exact this.2
  have e : r.reg.available = (updateSupportedCaps (capRun st (.registered :: before)).1 order env).1.reg.available := by
    show (capRun st _).1.reg.available = _
    unfold capRun
    rw [List.foldl_append, List.foldl_cons]
    refine hcaps caps _ (fold_registered ?_ (fun st hs => update_registered st hs order env))
    rw [List.foldl_cons]
    exact hreg before _ rfl
  rw [e, update_avail _ _ _ _ (by
    revert hc
    simp only [needAllDownstreamCaps, List.mem_cons, List.not_mem_nil, or_false]
    unfold special
    rintro (rfl | rfl | rfl | rfl | rfl | rfl | rfl | rfl | rfl) <;> decide), if_pos (hp.mem_iff.2 hc)]
  simp

example : (GoMap.get (capRun (newDCaps [] true) [.registered,
    .update needAllDownstreamCaps ⟨[⟨[b!"away-notify"], [], false⟩], none, false, true⟩, .cap b!"LS" [b!"302"]]).1.reg.available
      b!"message-tags") = none ∧
    (GoMap.get (capRun (newDCaps [] true) [.cap b!"LS" [b!"302"]]).1.reg.available b!"message-tags") = some [] := by
  decide +kernel

/-- **C25 (violated)**: a version number out of range is refused as an error but recorded, so that the
client counts as one of version 302 or later although cap-notify was not enabled for it. -/
theorem C25_version_overflow_violated :
    let r := handleCap (newDCaps [] true) b!"LS" [b!"99999999999999999999"]
    r.2 = [.failed] ∧ r.1.version ≥ 302 ∧ b!"cap-notify" ∉ r.1.reg.enabled := by decide +kernel

end Verif.Props
