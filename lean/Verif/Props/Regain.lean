import Verif.Spec.Regain
import Verif.Proof.Util

/-! # C80: the bouncer gets the wanted nick back -/

namespace Verif.Props
open Verif.Model Verif.Spec Verif.Proof

private theorem same_iff (cm : CaseMapping) (a b : Str) : gnSame cm a b = true ↔ SameNick cm a b := by
  simp [gnSame, SameNick]

private theorem same_dec (cm : CaseMapping) (a b : Str) : gnSame cm a b = decide (SameNick cm a b) := rfl

private theorem same_comm (cm : CaseMapping) (a b : Str) : SameNick cm a b ↔ SameNick cm b a := by
  simp [SameNick, eq_comm]

private theorem same_trans {cm : CaseMapping} {a b c : Str} (h : SameNick cm a b) (h' : SameNick cm b c) :
    SameNick cm a c := Eq.trans h h'

private theorem casemap_nil_iff (cm : CaseMapping) (a : Str) : casemap cm a = [] ↔ a = [] := by
  cases cm <;> simp [casemap]

private theorem same_nil (cm : CaseMapping) (a : Str) : gnSame cm [] a = true ↔ a = [] := by
  rw [same_iff, SameNick, show casemap cm [] = [] by cases cm <;> rfl, eq_comm, casemap_nil_iff]

private theorem gnRun_snoc (cm : CaseMapping) (op : GnOp) : ∀ (ops : List GnOp) (st : GnState),
    gnRun cm st (ops ++ [op]) = (gnRun cm st ops).bind fun r => (gnStep cm r.1 op).map fun s => (s.1, r.2 ++ [(op, s.2)])
  | [], st => by
    simp only [List.nil_append, gnRun, Option.bind_some]
    cases gnStep cm st op with
    | none => rfl
    | some s => rfl
  | o :: ops, st => by
    simp only [List.cons_append, gnRun]
    cases gnStep cm st o with
    | none => rfl
    | some s =>
      simp only
      rw [gnRun_snoc cm op ops s.1]
      cases gnRun cm s.1 ops with
      | none => rfl
      | some r =>
        simp only [Option.bind_some, Option.map_some]
        cases gnStep cm r.1 op <;> rfl

private theorem gnRun_ops (cm : CaseMapping) : ∀ (ops : List GnOp) (st st' : GnState) (tr),
    gnRun cm st ops = some (st', tr) → tr.map (·.1) = ops
  | [], st, st', tr, h => by cases h; rfl
  | o :: ops, st, st', tr, h => by
    simp only [gnRun] at h
    split at h
    · cases h
    next s outs hs =>
      match hr : gnRun cm s ops with
      | none => rw [hr] at h; cases h
      | some (s', tr') =>
        rw [hr] at h
        cases h
        simp [gnRun_ops cm ops s s' tr' hr]

private theorem gnTrack_snoc (cm : CaseMapping) (want : Str) (tr : List (GnOp × List GnOut)) (e : GnOp × List GnOut) :
    gnTrack cm want (tr ++ [e]) =
      (gnSee cm (gnTrack cm want tr).1 e.1, gnOpenStep cm (gnTrack cm want tr).1 (gnTrack cm want tr).2 e) := by
  simp [gnTrack]

private theorem gnTrack_view (cm : CaseMapping) (want : Str) (tr : List (GnOp × List GnOut)) :
    (gnTrack cm want tr).1 = gnView cm want (tr.map (·.1)) := by
  induction tr using snocInd with
  | nil => rfl
  | snoc tr e ih =>
    rw [gnTrack_snoc, ih]
    simp [gnView]

/-- What the connection knows and what has happened. -/
private structure Rel (cm : CaseMapping) (c : GnConn) (next : Nat) (evs : List (Nat × Str)) (v : GnView)
    (att : Option Str) : Prop where
  held : v.held = some c.nick
  pend : c.pending = att.getD []
  attn : att ≠ some []
  had : c.hasDesired = v.had
  mon : c.monitor = v.monitor
  motd : c.gotMotd = v.motd
  timer : c.timer ≠ none → c.gotMotd = true
  num : c.num < next
  early : c.gotMotd = false → att = none ∧ ∀ e ∈ evs, e.1 ≠ c.num
  events : ∀ t, c.timer = some t → ∀ e ∈ evs, e.1 = c.num → e.2 = t.nick
  trying : v.trying = true → ∃ t, c.timer = some t ∧ t.nick = v.want ∧ ¬ SameNick cm c.nick v.want ∧
    (t.armed = true ∨ (c.num, v.want) ∈ evs) ∧ (att = none ∨ att = some v.want)

private structure Rel0 (cm : CaseMapping) (st : GnState) (v : GnView) (att : Option Str) : Prop where
  want : st.want = v.want
  named : v.want ≠ []
  fresh : ∀ e ∈ st.firing ++ st.queue, e.1 < st.nextNum
  off : st.conn = none → v.held = none ∧ att = none ∧ v.trying = false
  on : ∀ c, st.conn = some c → Rel cm c st.nextNum (st.firing ++ st.queue) v att

/-- Steps that change neither the connection nor the events. -/
private theorem rel0_conn {cm : CaseMapping} {st st' : GnState} {v v' : GnView} {att att' : Option Str} {c' : GnConn}
    (h : Rel0 cm st v att) (hw : v'.want = v.want) (hw' : st'.want = v.want) (h1 : st'.conn = some c')
    (h2 : st'.nextNum = st.nextNum) (h3 : st'.firing = st.firing) (h4 : st'.queue = st.queue)
    (hr : Rel cm c' st.nextNum (st.firing ++ st.queue) v' att') : Rel0 cm st' v' att' := by
  refine ⟨hw'.trans hw.symm, hw ▸ h.named, ?_, ?_, ?_⟩
  · rw [h2, h3, h4]; exact h.fresh
  · rw [h1]; exact nofun
  · intro d hd
    rw [h1] at hd
    cases hd
    rw [h2, h3, h4]
    exact hr

private theorem step_rel {cm : CaseMapping} {st : GnState} {v : GnView} {att : Option Str} {op : GnOp}
    (h : Rel0 cm st v att) (hn : op.Named) :
    ∃ r, gnStep cm st op = some r ∧ Rel0 cm r.1 (gnSee cm v op) (gnOpenStep cm v att (op, r.2)) := by
  cases op with
  | registered taken nick =>
    simp only [gnStep]
    split
    next c hc =>
      refine ⟨_, rfl, ?_⟩
      have hr := h.on c hc
      simp only [gnSee, hr.held]
      cases att <;> exact h
    next hc =>
      obtain ⟨h1, h2, h3⟩ := h.off hc
      refine ⟨_, rfl, ?_⟩
      subst h2
      simp only [gnSee, h1, gnOpenStep]
      refine ⟨h.want, h.named, fun e he => Nat.lt_succ_of_lt (h.fresh e he), fun h => (nomatch h), fun d hd => ?_⟩
      cases hd
      exact ⟨rfl, rfl, nofun, rfl, rfl, rfl, nofun, Nat.lt_succ_self _, fun _ => ⟨rfl, fun e he => Nat.ne_of_lt (h.fresh e he)⟩,
        nofun, nofun⟩
  | disconnected =>
    refine ⟨_, rfl, ⟨h.want, h.named, h.fresh, fun _ => ⟨rfl, rfl, rfl⟩, nofun⟩⟩
  | isupport m =>
    refine ⟨_, rfl, ?_⟩
    match hc : st.conn with
    | none =>
      obtain ⟨h1, h2, h3⟩ := h.off hc
      subst h2
      simp only [gnSee, h1, gnOpenStep, Option.map_none]
      exact ⟨h.want, h.named, h.fresh, fun _ => ⟨h1, rfl, h3⟩, nofun⟩
    | some c =>
      have hr := h.on c hc
      simp only [gnSee, hr.held, Option.map_some, Option.isSome_some, if_true]
      have e : gnOpenStep cm v att (.isupport m, []) = att := by cases att <;> rfl
      rw [e]
      refine rel0_conn h rfl h.want rfl rfl rfl rfl ?_
      exact ⟨rfl, hr.pend, hr.attn, hr.had, rfl, hr.motd, hr.timer, hr.num, hr.early, hr.events, hr.trying⟩
  | motdEnd =>
    have e : gnOpenStep cm v att (.motdEnd, []) = att := by cases att <;> rfl
    simp only [gnStep]
    split
    next hc =>
      obtain ⟨h1, h2, h3⟩ := h.off hc
      refine ⟨_, rfl, ?_⟩
      simp only [gnSee, h1, e]
      exact h
    next c hc =>
      have hr := h.on c hc
      split
      next hg =>
        refine ⟨_, rfl, ?_⟩
        simp only [gnSee, hr.held, e, ← hr.motd, hg, if_true]
        exact h
      next hg =>
        have hg : c.gotMotd = false := by simpa using hg
        have ht : c.timer = none := Classical.byContradiction fun hn => by simp [hr.timer hn] at hg
        have hv : v.motd = false := hr.motd ▸ hg
        split
        next hm =>
          refine ⟨_, rfl, ?_⟩
          have hvm : v.monitor = true := hr.mon ▸ hm
          simp only [gnSee, hr.held, e, hv, hvm, Bool.not_true, Bool.false_and, Bool.false_eq_true, if_false]
          refine rel0_conn h rfl (by first | rfl | exact h.want) rfl rfl rfl rfl ?_
          exact ⟨rfl, hr.pend, hr.attn, hr.had, by simpa using hm, rfl, fun _ => rfl, hr.num, nofun, hr.events, nofun⟩
        next hm =>
          have hvm : v.monitor = false := by rw [← hr.mon]; simpa using hm
          unfold startRegain
          simp only [ht, Option.isSome_none, Bool.false_eq_true, if_false]
          rw [same_dec]
          rw [h.want]
          split
          next hs =>
            refine ⟨_, rfl, ?_⟩
            simp only [gnSee, hr.held, e, hv, hvm, Bool.false_eq_true, if_false, hs, Bool.not_true, Bool.and_false]
            refine rel0_conn h rfl (by first | rfl | exact h.want) rfl rfl rfl rfl ?_
            exact ⟨rfl, hr.pend, hr.attn, hr.had, by simpa using hm, rfl, fun _ => rfl, hr.num, nofun, nofun, nofun⟩
          next hs =>
            refine ⟨_, rfl, ?_⟩
            simp only [gnSee, hr.held, e, hv, hvm, Bool.false_eq_true, if_false, hs]
            refine rel0_conn h rfl (by first | rfl | exact h.want) rfl rfl rfl rfl ?_
            refine ⟨rfl, hr.pend, hr.attn, hr.had, by simpa using hm, rfl, fun _ => rfl, hr.num, nofun, ?_, ?_⟩
            · intro t ht' ev hev hnum
              exact absurd hnum ((hr.early hg).2 ev hev)
            · intro _
              exact ⟨_, rfl, rfl, by simpa using hs, Or.inl rfl, Or.inl (hr.early hg).1⟩
  | serverNick old new =>
    refine ⟨_, rfl, ?_⟩
    match hc : st.conn with
    | none =>
      obtain ⟨h1, h2, h3⟩ := h.off hc
      subst h2
      simp only [gnSee, h1, gnOpenStep, Option.map_none]
      exact ⟨h.want, h.named, h.fresh, fun _ => ⟨h1, rfl, h3⟩, nofun⟩
    | some c =>
      have hr := h.on c hc
      simp only [gnSee, hr.held, Option.map_some]
      by_cases ho : SameNick cm c.nick old
      · simp only [ho, if_true]
        have hpend : SameNick cm c.pending new ↔ ∃ n, att = some n ∧ SameNick cm n new := by
          rw [hr.pend]
          cases att with
          | none =>
            rw [Option.getD_none, ← same_iff, same_nil]
            simp only [reduceCtorEq, false_and, exists_false, iff_false]
            exact hn
          | some n => simp
        have e : gnOpenStep cm v att (.serverNick old new, []) = if SameNick cm c.pending new then none else att := by
          cases att with
          | none => simp [gnOpenStep]
          | some n =>
            have hp : c.pending = n := hr.pend
            simp [gnOpenStep, GnView.given, hr.held, ho, hp]
        rw [e]
        by_cases hp : SameNick cm c.pending new
        · have htry : v.trying = true → SameNick cm new v.want := by
            intro ht
            obtain ⟨n, hn1, hn2⟩ := hpend.mp hp
            obtain ⟨t, -, -, -, -, h5⟩ := hr.trying ht
            rcases h5 with h5 | h5
            · rw [h5] at hn1; cases hn1
            · rw [h5] at hn1; cases hn1; exact (same_comm ..).mp hn2
          rw [if_pos hp]
          by_cases hw : SameNick cm new v.want
          · have ec : gnServerNick cm st.want old new c = { c with nick := new, pending := [], timer := none, hasDesired := true } := by
              simp [gnServerNick, same_dec, ho, hp, h.want, stopRegain, (same_comm cm v.want new).mpr hw]
            rw [ec]
            exact rel0_conn h rfl h.want rfl rfl rfl rfl
              ⟨rfl, rfl, nofun, by simp [GnView.renamed, hw], hr.mon, hr.motd, nofun, hr.num, fun hg => ⟨rfl, (hr.early hg).2⟩, nofun,
                by simp [GnView.renamed, hw]⟩
          · have ec : gnServerNick cm st.want old new c = { c with nick := new, pending := [], timer := none } := by
              simp [gnServerNick, same_dec, ho, hp, h.want, stopRegain, mt (same_comm cm v.want new).mp hw]
            rw [ec]
            exact rel0_conn h rfl h.want rfl rfl rfl rfl
              ⟨rfl, rfl, nofun, by simp [GnView.renamed, hw, hr.had], hr.mon, hr.motd, nofun, hr.num,
                fun hg => ⟨rfl, (hr.early hg).2⟩, nofun, fun ht => absurd (htry (by simpa [GnView.renamed, hw] using ht)) hw⟩
        · rw [if_neg hp]
          by_cases hw : SameNick cm new v.want
          · have ec : gnServerNick cm st.want old new c = { c with nick := new, hasDesired := true } := by
              simp [gnServerNick, same_dec, ho, hp, h.want, (same_comm cm v.want new).mpr hw]
            rw [ec]
            exact rel0_conn h rfl h.want rfl rfl rfl rfl
              ⟨rfl, hr.pend, hr.attn, by simp [GnView.renamed, hw], hr.mon, hr.motd, hr.timer, hr.num, hr.early, hr.events,
                by simp [GnView.renamed, hw]⟩
          · have ec : gnServerNick cm st.want old new c = { c with nick := new } := by
              simp [gnServerNick, same_dec, ho, hp, h.want, mt (same_comm cm v.want new).mp hw]
            rw [ec]
            refine rel0_conn h rfl h.want rfl rfl rfl rfl
              ⟨rfl, hr.pend, hr.attn, by simp [GnView.renamed, hw, hr.had], hr.mon, hr.motd, hr.timer, hr.num, hr.early, hr.events, ?_⟩
            intro ht
            obtain ⟨t, h1, h2, h3, h4⟩ := hr.trying (by simpa [GnView.renamed, hw] using ht)
            exact ⟨t, h1, h2, hw, h4⟩
      · have ec : gnServerNick cm st.want old new c = c := by simp [gnServerNick, same_dec, ho]
        simp only [ho, if_false, ec]
        have e : gnOpenStep cm v att (.serverNick old new, []) = att := by
          cases att <;> simp [gnOpenStep, GnView.given, hr.held, ho]
        rw [e]
        exact rel0_conn h rfl h.want rfl rfl rfl rfl hr
  | inUse n =>
    simp only [gnStep]
    split
    next hc =>
      obtain ⟨h1, h2, h3⟩ := h.off hc
      refine ⟨_, rfl, ?_⟩
      subst h2
      exact h
    next c hc =>
      have hr := h.on c hc
      rw [same_dec]
      split
      next hp =>
        refine ⟨_, rfl, ?_⟩
        have e : gnOpenStep cm v att (.inUse n, []) = none := by
          cases att with
          | none => rfl
          | some a =>
            have hp' : c.pending = a := hr.pend
            rw [hp'] at hp
            simp [gnOpenStep, GnView.given, of_decide_eq_true hp]
        rw [e]
        refine rel0_conn h rfl h.want rfl rfl rfl rfl ⟨hr.held, rfl, nofun, hr.had, hr.mon, hr.motd, hr.timer, hr.num,
          fun hg => ⟨rfl, (hr.early hg).2⟩, hr.events, fun ht => ?_⟩
        obtain ⟨t, h1, h2, h3, h4, h5⟩ := hr.trying ht
        exact ⟨t, h1, h2, h3, h4, Or.inl rfl⟩
      next hp =>
        refine ⟨_, rfl, ?_⟩
        have e : gnOpenStep cm v att (.inUse n, [.shown n]) = att := by
          cases att with
          | none => rfl
          | some a =>
            have hp' : c.pending = a := hr.pend
            rw [hp'] at hp
            simp [gnOpenStep, GnView.given, (by simpa using hp : ¬ SameNick cm a n)]
        rw [e]
        exact h
  | refused n =>
    have e : ∀ outs, gnOpenStep cm v att (.refused n, outs) = att := by intro outs; cases att <;> rfl
    simp only [gnStep]
    split <;> exact ⟨_, rfl, by rw [e]; exact h⟩
  | monReply online targets =>
    have e : ∀ outs, gnOpenStep cm v att (.monReply online targets, outs) = att := by intro outs; cases att <;> rfl
    simp only [gnStep]
    split
    · exact ⟨_, rfl, by rw [e]; exact h⟩
    · split <;> exact ⟨_, rfl, by rw [e]; exact h⟩
  | clientNick n =>
    have e : ∀ outs, gnOpenStep cm v att (.clientNick n, outs) = att := by intro outs; cases att <;> rfl
    have hrel : Rel0 cm { st with want := n } (v.wants n) att := by
      refine ⟨rfl, hn, h.fresh, fun hc => ?_, fun c hc => ?_⟩
      · obtain ⟨h1, h2, h3⟩ := h.off hc
        exact ⟨h1, h2, by simp [GnView.wants, h3]⟩
      · have hr := h.on c hc
        refine ⟨hr.held, hr.pend, hr.attn, hr.had, hr.mon, hr.motd, hr.timer, hr.num, hr.early, hr.events, fun ht => ?_⟩
        simp only [GnView.wants, Bool.and_eq_true, decide_eq_true_eq] at ht ⊢
        rw [ht.2]
        exact hr.trying ht.1
    simp only [gnStep]
    split <;> exact ⟨_, rfl, by rw [e]; exact hrel⟩
  | setWant n =>
    have e : ∀ outs, gnOpenStep cm v att (.setWant n, outs) = att := by intro outs; cases att <;> rfl
    have hrel : Rel0 cm { st with want := n } (v.wants n) att := by
      refine ⟨rfl, hn, h.fresh, fun hc => ?_, fun c hc => ?_⟩
      · obtain ⟨h1, h2, h3⟩ := h.off hc
        exact ⟨h1, h2, by simp [GnView.wants, h3]⟩
      · have hr := h.on c hc
        refine ⟨hr.held, hr.pend, hr.attn, hr.had, hr.mon, hr.motd, hr.timer, hr.num, hr.early, hr.events, fun ht => ?_⟩
        simp only [GnView.wants, Bool.and_eq_true, decide_eq_true_eq] at ht ⊢
        rw [ht.2]
        exact hr.trying ht.1
    exact ⟨_, rfl, by rw [e]; exact hrel⟩
  | fire =>
    have e : ∀ outs, gnOpenStep cm v att (.fire, outs) = att := by intro outs; cases att <;> rfl
    simp only [gnStep]
    split
    · exact ⟨_, rfl, by rw [e]; exact h⟩
    next c hc =>
      have hr := h.on c hc
      split
      · exact ⟨_, rfl, by rw [e]; exact h⟩
      next t ht =>
        split
        next ha =>
          refine ⟨_, rfl, ?_⟩
          rw [e]
          have hm : ∀ x, x ∈ (st.firing ++ [(c.num, t.nick)]) ++ st.queue ↔ x = (c.num, t.nick) ∨ x ∈ st.firing ++ st.queue := by
            intro x
            simp only [List.mem_append, List.mem_singleton]
            constructor
            · rintro ((h | h) | h) <;> simp [h]
            · rintro (h | h | h) <;> simp [h]
          refine ⟨h.want, h.named, ?_, nofun, ?_⟩
          · intro x hx
            rcases (hm x).mp hx with rfl | hx
            · exact hr.num
            · exact h.fresh x hx
          · intro d hd
            cases hd
            refine ⟨hr.held, hr.pend, hr.attn, hr.had, hr.mon, hr.motd, fun _ => hr.timer (by simp [ht]), hr.num, ?_, ?_, ?_⟩
            · intro hg
              have := hr.timer (by simp [ht])
              rw [show c.gotMotd = false from hg] at this
              cases this
            · intro t' ht' x hx hxn
              cases ht'
              rcases (hm x).mp hx with rfl | hx
              · rfl
              · exact hr.events t ht x hx hxn
            · intro hv
              obtain ⟨t', h1, h2, h3, h4, h5⟩ := hr.trying hv
              rw [ht] at h1
              cases h1
              exact ⟨_, rfl, h2, h3, Or.inr ((hm _).mpr (Or.inl (by rw [h2]; rfl))), h5⟩
        next ha => exact ⟨_, rfl, by rw [e]; exact h⟩
  | deliver room =>
    have e : ∀ outs, gnOpenStep cm v att (.deliver room, outs) = att := by intro outs; cases att <;> rfl
    have hv : Rel0 cm st (gnSee cm v (.deliver room)) att := by
      cases room with
      | true => exact h
      | false =>
        refine ⟨h.want, h.named, h.fresh, fun hc => ⟨(h.off hc).1, (h.off hc).2.1, rfl⟩, fun c hc => ?_⟩
        have hr := h.on c hc
        exact ⟨hr.held, hr.pend, hr.attn, hr.had, hr.mon, hr.motd, hr.timer, hr.num, hr.early, hr.events, nofun⟩
    simp only [gnStep]
    split
    · exact ⟨_, rfl, by rw [e]; exact hv⟩
    next x rest hf =>
      split
      next hroom =>
        refine ⟨_, rfl, ?_⟩
        rw [e]
        have hm : ∀ y, y ∈ rest ++ (st.queue ++ [x]) ↔ y ∈ st.firing ++ st.queue := by
          intro y
          rw [hf]
          simp only [List.mem_append, List.mem_cons, List.not_mem_nil, or_false]
          constructor
          · rintro (h | h | h) <;> simp [h]
          · rintro ((h | h) | h) <;> simp [h]
        refine ⟨hv.want, hv.named, fun y hy => hv.fresh y ((hm y).mp hy), hv.off, fun c hc => ?_⟩
        have hr := hv.on c hc
        refine ⟨hr.held, hr.pend, hr.attn, hr.had, hr.mon, hr.motd, hr.timer, hr.num, ?_, ?_, ?_⟩
        · intro hg
          exact ⟨(hr.early hg).1, fun y hy => (hr.early hg).2 y ((hm y).mp hy)⟩
        · intro t ht y hy
          exact hr.events t ht y ((hm y).mp hy)
        · intro hvv
          obtain ⟨t, h1, h2, h3, h4, h5⟩ := hr.trying hvv
          exact ⟨t, h1, h2, h3, h4.imp_right (hm _).mpr, h5⟩
      next hroom =>
        refine ⟨_, rfl, ?_⟩
        rw [e]
        have hroom : room = false := by simpa using hroom
        subst hroom
        have hm : ∀ y, y ∈ rest ++ st.queue → y ∈ st.firing ++ st.queue := by
          intro y hy
          rw [hf]
          exact List.mem_cons_of_mem _ hy
        refine ⟨hv.want, hv.named, fun y hy => hv.fresh y (hm y hy), hv.off, fun c hc => ?_⟩
        have hr := hv.on c hc
        exact ⟨hr.held, hr.pend, hr.attn, hr.had, hr.mon, hr.motd, hr.timer, hr.num,
          fun hg => ⟨(hr.early hg).1, fun y hy => (hr.early hg).2 y (hm y hy)⟩, fun t ht y hy => hr.events t ht y (hm y hy), nofun⟩
  | handle =>
    have e0 : gnOpenStep cm v att (.handle, []) = att := by cases att <;> rfl
    simp only [gnStep]
    split
    · exact ⟨_, rfl, by rw [e0]; exact h⟩
    next num nick rest hq =>
      have hm : ∀ y, y ∈ st.firing ++ rest → y ∈ st.firing ++ st.queue := by
        intro y hy
        rw [hq]
        rcases List.mem_append.mp hy with hy | hy
        · exact List.mem_append_left _ hy
        · exact List.mem_append_right _ (List.mem_cons_of_mem _ hy)
      split
      next hc => 
        refine ⟨_, rfl, ?_⟩
        rw [e0]
        exact ⟨h.want, h.named, fun y hy => h.fresh y (hm y hy), h.off, fun c hc' => by rw [show st.conn = none from hc] at hc'; cases hc'⟩
      next c hc =>
        have hc : st.conn = some c := hc
        have hr := h.on c hc
        split
        next hnum =>
          have hin : (num, nick) ∈ st.firing ++ st.queue := by rw [hq]; simp
          refine ⟨_, rfl, ?_⟩
          dsimp only
          unfold tryRegain
          split
          next ht =>
            rw [e0]
            refine ⟨h.want, h.named, fun y hy => h.fresh y (hm y hy), nofun, fun d hd => ?_⟩
            cases hd
            exact ⟨hr.held, hr.pend, hr.attn, hr.had, hr.mon, hr.motd, hr.timer, hr.num,
              fun hg => ⟨(hr.early hg).1, fun y hy => (hr.early hg).2 y (hm y hy)⟩, fun t ht y hy => hr.events t ht y (hm y hy),
              fun hv => by obtain ⟨t, h1, -⟩ := hr.trying hv; rw [ht] at h1; cases h1⟩
          next t ht =>
            split
            next hstop =>
              rw [e0]
              refine ⟨h.want, h.named, fun y hy => h.fresh y (hm y hy), nofun, fun d hd => ?_⟩
              cases hd
              refine ⟨hr.held, hr.pend, hr.attn, hr.had, hr.mon, hr.motd, nofun, hr.num,
                fun hg => ⟨(hr.early hg).1, fun y hy => (hr.early hg).2 y (hm y hy)⟩, nofun, fun hv => ?_⟩
              obtain ⟨t', h1, h2, h3, h4, h5⟩ := hr.trying hv
              rw [ht] at h1
              cases h1
              rcases hstop with hs | hs
              · exact absurd (by rw [show st.want = v.want from h.want, ← h2]; exact (hr.events t ht _ hin hnum.symm).symm) hs
              · rw [same_iff, show st.want = v.want from h.want] at hs
                exact absurd hs h3
            next hstop =>
              have htry : ∀ att', (att' = none ∨ att' = some v.want) → v.trying = true → ∃ t', some { t with armed := true } = some t' ∧
                  t'.nick = v.want ∧ ¬ SameNick cm c.nick v.want ∧ (t'.armed = true ∨ (c.num, v.want) ∈ st.firing ++ rest) ∧
                  (att' = none ∨ att' = some v.want) := by
                intro att' ha hv
                obtain ⟨t', h1, h2, h3, h4, h5⟩ := hr.trying hv
                rw [ht] at h1
                cases h1
                exact ⟨_, rfl, h2, h3, Or.inl rfl, ha⟩
              have hg : c.gotMotd = true := hr.timer (by simp [ht])
              dsimp only
              split
              next hp =>
                rw [e0]
                refine ⟨h.want, h.named, fun y hy => h.fresh y (hm y hy), nofun, fun d hd => ?_⟩
                cases hd
                refine ⟨hr.held, hr.pend, hr.attn, hr.had, hr.mon, hr.motd, fun _ => hg, hr.num, ?_, ?_, ?_⟩
                · intro hg'
                  rw [show c.gotMotd = false from hg'] at hg; cases hg
                · intro t' ht' y hy hyn
                  cases ht'
                  exact hr.events t ht y (hm y hy) hyn
                · intro hv
                  exact htry _ (by obtain ⟨_, _, _, _, _, h5⟩ := hr.trying hv; exact h5) hv
              next hp =>
                have e1 : gnOpenStep cm v att (.handle, [.regain st.want]) = some v.want := by
                  simp [gnOpenStep, h.want]
                rw [e1]
                refine ⟨h.want, h.named, fun y hy => h.fresh y (hm y hy), nofun, fun d hd => ?_⟩
                cases hd
                refine ⟨hr.held, h.want, by simpa using h.named, hr.had, hr.mon, hr.motd, fun _ => hg, hr.num, ?_, ?_, ?_⟩
                · intro hg'
                  rw [show c.gotMotd = false from hg'] at hg; cases hg
                · intro t' ht' y hy hyn
                  cases ht'
                  exact hr.events t ht y (hm y hy) hyn
                · exact htry _ (Or.inr rfl)
        next hnum =>
          refine ⟨_, rfl, ?_⟩
          rw [e0]
          refine ⟨h.want, h.named, fun y hy => h.fresh y (hm y hy), fun hc' => (by rw [show st.conn = none from hc'] at hc; cases hc), fun d hd => ?_⟩
          have hd : st.conn = some d := hd
          rw [hc] at hd
          cases hd
          refine ⟨hr.held, hr.pend, hr.attn, hr.had, hr.mon, hr.motd, hr.timer, hr.num,
            fun hg => ⟨(hr.early hg).1, fun y hy => (hr.early hg).2 y (hm y hy)⟩, fun t ht y hy => hr.events t ht y (hm y hy), ?_⟩
          intro hv
          obtain ⟨t, h1, h2, h3, h4, h5⟩ := hr.trying hv
          refine ⟨t, h1, h2, h3, h4.imp_right fun hx => ?_, h5⟩
          rw [hq] at hx
          rcases List.mem_append.mp hx with hx | hx
          · exact List.mem_append_left _ hx
          · rcases List.mem_cons.mp hx with hx | hx
            · exact absurd (congrArg Prod.fst hx) hnum
            · exact List.mem_append_right _ hx

private theorem run_rel {cm : CaseMapping} {want : Str} (hw : want ≠ []) (ops : List GnOp) (hn : ∀ op ∈ ops, op.Named) :
    ∃ st tr, gnRun cm (gnInit want) ops = some (st, tr) ∧ tr.map (·.1) = ops ∧
      Rel0 cm st (gnView cm want ops) (gnOpen cm want tr) := by
  induction ops using snocInd with
  | nil =>
    exact ⟨_, _, rfl, rfl, rfl, hw, nofun, fun _ => ⟨rfl, rfl, rfl⟩, nofun⟩
  | snoc ops op ih =>
    obtain ⟨st, tr, h1, h2, h3⟩ := ih fun o ho => hn o (by simp [ho])
    obtain ⟨r, hr1, hr2⟩ := step_rel (op := op) h3 (hn op (by simp))
    refine ⟨r.1, tr ++ [(op, r.2)], ?_, by simp [h2], ?_⟩
    · rw [gnRun_snoc, h1, Option.bind_some, hr1]
      rfl
    · have e1 : gnView cm want (ops ++ [op]) = gnSee cm (gnView cm want ops) op := by simp [gnView]
      have e2 : gnOpen cm want (tr ++ [(op, r.2)]) = gnOpenStep cm (gnView cm want ops) (gnOpen cm want tr) (op, r.2) := by
        rw [gnOpen, gnTrack_snoc, gnTrack_view, h2]
        rfl
      rw [e1, e2]
      exact hr2

/-- The timer is never started twice: the loop of the user does not panic. -/
theorem C80_no_panic (cm : CaseMapping) (want : Str) (hw : want ≠ []) (ops : List GnOp) (hn : ∀ op ∈ ops, op.Named) :
    ∃ st tr, gnRun cm (gnInit want) ops = some (st, tr) ∧ tr.map (·.1) = ops := by
  obtain ⟨st, tr, h1, h2, -⟩ := run_rel (cm := cm) hw ops hn
  exact ⟨st, tr, h1, h2⟩

/-- Of its own accord, the bouncer asks for no other nick than the wanted one, and only while it is connected under
another nick. -/
theorem C80_asked (cm : CaseMapping) (want : Str) (hw : want ≠ []) (ops : List GnOp) (op : GnOp)
    (hn : ∀ o ∈ ops ++ [op], o.Named) (st : GnState) (tr : List (GnOp × List GnOut)) (outs : List GnOut) (n : Str)
    (hrun : gnRun cm (gnInit want) (ops ++ [op]) = some (st, tr ++ [(op, outs)])) (hout : .regain n ∈ outs) :
    n = (gnView cm want ops).want ∧ ∃ nick, (gnView cm want ops).held = some nick ∧ ¬ SameNick cm nick n := by
  obtain ⟨st0, tr0, h1, h2, h3⟩ := run_rel (cm := cm) hw ops fun o ho => hn o (by simp [ho])
  rw [gnRun_snoc, h1, Option.bind_some] at hrun
  match hs : gnStep cm st0 op with
  | none => rw [hs] at hrun; cases hrun
  | some r =>
    rw [hs] at hrun
    simp only [Option.map_some, Option.some.injEq, Prod.mk.injEq] at hrun
    have := List.append_inj_right' hrun.2 rfl
    simp only [List.cons.injEq, Prod.mk.injEq, true_and, and_true] at this
    subst this
    cases op <;> simp only [gnStep] at hs
    case registered => split at hs <;> cases hs <;> cases hout
    case disconnected => cases hs; cases hout
    case isupport => cases hs; cases hout
    case motdEnd =>
      split at hs
      · cases hs; cases hout
      · split at hs
        · cases hs; cases hout
        · split at hs
          · cases hs; cases hout
          · obtain ⟨_, _, rfl⟩ := Option.map_eq_some_iff.mp hs
            cases hout
    case serverNick => cases hs; cases hout
    case inUse =>
      split at hs
      · cases hs; cases hout
      · split at hs <;> cases hs <;> simp at hout
    case refused => split at hs <;> cases hs <;> simp at hout
    case monReply =>
      split at hs
      · cases hs; cases hout
      next c hc =>
        split at hs <;> cases hs
        next hcond =>
          simp only [List.mem_singleton, GnOut.regain.injEq] at hout
          subst hout
          refine ⟨h3.want, c.nick, (h3.on c hc).held, ?_⟩
          have := hcond.2.1
          simpa [same_dec] using this
        · cases hout
    case clientNick => split at hs <;> cases hs <;> simp at hout
    case setWant => cases hs; cases hout
    case fire =>
      split at hs
      · cases hs; cases hout
      · split at hs
        · cases hs; cases hout
        · split at hs <;> cases hs <;> cases hout
    case deliver =>
      split at hs
      · cases hs; cases hout
      · split at hs <;> cases hs <;> cases hout
    case handle =>
      split at hs
      · cases hs; cases hout
      · split at hs
        · cases hs; cases hout
        next c hc =>
          have hc : st0.conn = some c := hc
          split at hs
          · cases hs
            dsimp only at hout
            unfold tryRegain at hout
            split at hout
            · cases hout
            · split at hout
              · cases hout
              next hstop =>
                dsimp only at hout
                split at hout
                · cases hout
                · simp only [List.mem_singleton, GnOut.regain.injEq] at hout
                  subst hout
                  refine ⟨h3.want, c.nick, (h3.on c hc).held, ?_⟩
                  intro hsame
                  exact hstop (Or.inr ((same_iff ..).mpr hsame))
          · cases hs; cases hout

/-- With MONITOR: when the server says that the wanted nick is not in use any more, the bouncer asks for it at once,
unless it has had it during this connection. -/
theorem C80_monitor (cm : CaseMapping) (want : Str) (hw : want ≠ []) (ops : List GnOp) (hn : ∀ op ∈ ops, op.Named)
    (st : GnState) (tr : List (GnOp × List GnOut)) (hrun : gnRun cm (gnInit want) ops = some (st, tr))
    (targets : List Str) (nick t : Str) (hheld : (gnView cm want ops).held = some nick)
    (hnot : ¬ SameNick cm nick (gnView cm want ops).want) (hhad : (gnView cm want ops).had = false) (ht : t ∈ targets)
    (hsame : SameNick cm t (gnView cm want ops).want) :
    gnStep cm st (.monReply false targets) = some (st, [.regain (gnView cm want ops).want]) := by
  obtain ⟨st0, tr0, h1, h2, h3⟩ := run_rel (cm := cm) hw ops hn
  rw [hrun] at h1
  cases h1
  match hc : st.conn with
  | none => rw [(h3.off hc).1] at hheld; cases hheld
  | some c =>
    have hr := h3.on c hc
    have hnick : c.nick = nick := by rw [hr.held] at hheld; cases hheld; rfl
    simp only [gnStep, hc]
    rw [if_pos, h3.want]
    refine ⟨rfl, ?_, ?_, ?_⟩
    · rw [hnick, h3.want, same_dec]; simp [hnot]
    · rw [hr.had, hhad]; rfl
    · rw [List.any_eq_true]
      exact ⟨t, ht, by rw [h3.want, same_iff]; exact hsame⟩

/-- A message that the nick is in use is shown to the clients unless it answers an attempt of the clock. -/
theorem C80_quiet (cm : CaseMapping) (want : Str) (hw : want ≠ []) (ops : List GnOp) (hn : ∀ op ∈ ops, op.Named)
    (st : GnState) (tr : List (GnOp × List GnOut)) (hrun : gnRun cm (gnInit want) ops = some (st, tr))
    (n : Str) (hne : n ≠ []) (hon : (gnView cm want ops).held ≠ none) :
    ∃ st' outs, gnStep cm st (.inUse n) = some (st', outs) ∧
      (.shown n ∈ outs ↔ ¬ ∃ a, gnOpen cm want tr = some a ∧ SameNick cm a n) := by
  obtain ⟨st0, tr0, h1, h2, h3⟩ := run_rel (cm := cm) hw ops hn
  rw [hrun] at h1
  cases h1
  match hc : st.conn with
  | none => exact absurd (h3.off hc).1 hon
  | some c =>
    have hr := h3.on c hc
    have hp := hr.pend
    simp only [gnStep, hc]
    match hatt : gnOpen cm want tr with
    | none =>
      rw [hatt] at hp
      have : ¬ SameNick cm c.pending n := by
        rw [hp, ← same_iff, Option.getD_none, same_nil]; exact hne
      refine ⟨_, _, by rw [if_neg (mt (same_iff ..).mp this)], ?_⟩
      simp
    | some a =>
      rw [hatt] at hp
      have hp : c.pending = a := hp
      rw [← hp]
      by_cases hs : SameNick cm c.pending n
      · refine ⟨_, _, by rw [if_pos ((same_iff ..).mpr hs)], ?_⟩
        simp [hs]
      · refine ⟨_, _, by rw [if_neg (mt (same_iff ..).mp hs)], ?_⟩
        simp [hs]

/-- Handling the events in the queue. -/
private theorem handle_all {cm : CaseMapping} {want : Str} : ∀ (q : List (Nat × Str)) (st : GnState) (c : GnConn) (t : GnTimer),
    st.queue = q → st.conn = some c → c.timer = some t → st.want = want → ¬ SameNick cm c.nick want → c.pending = [] →
    (∀ e ∈ q, e.1 = c.num → e.2 = want) → (c.num, want) ∈ q →
    ∃ st' tr, gnRun cm st (List.replicate q.length .handle) = some (st', tr) ∧ (∃ e ∈ tr, .regain want ∈ e.2) := by
  intro q
  induction q with
  | nil => intro _ _ _ _ _ _ _ _ _ _ h; cases h
  | cons e q ih =>
    intro st c t hq hc ht hw hs hp hev hin
    obtain ⟨num, n⟩ := e
    have rest : ∀ (q : List GnOp) (s : GnState), (∀ o ∈ q, o = .handle) → ∃ s' tr, gnRun cm s q = some (s', tr) := by
      intro q
      induction q with
      | nil => intro s _; exact ⟨s, [], rfl⟩
      | cons o q ihq =>
        intro s ho
        have := ho o (by simp)
        subst this
        have : ∃ r, gnStep cm s .handle = some r := by
          simp only [gnStep]
          split
          · exact ⟨_, rfl⟩
          · split
            · exact ⟨_, rfl⟩
            · split <;> exact ⟨_, rfl⟩
        obtain ⟨r, hr⟩ := this
        obtain ⟨s', tr, h⟩ := ihq r.1 fun o h => ho o (by simp [h])
        refine ⟨s', (.handle, r.2) :: tr, ?_⟩
        simp only [gnRun, hr, h, Option.map_some]
    by_cases hnum : c.num = num
    · have hn : n = want := hev (num, n) (by simp) hnum.symm
      subst hn
      have hstep : ∃ s, gnStep cm st .handle = some (s, [.regain n]) := by
        simp only [gnStep, hq, hc, hnum, if_true, hw]
        have : tryRegain cm n n c = ({ c with timer := some { t with armed := true }, pending := n }, [.regain n]) := by
          simp [tryRegain, ht, same_dec, hs, hp]
        rw [this]
        exact ⟨_, rfl⟩
      obtain ⟨s, hstep⟩ := hstep
      obtain ⟨s', tr, h⟩ := rest (List.replicate q.length .handle) s (by intro o ho; exact List.eq_of_mem_replicate ho)
      refine ⟨s', (.handle, [.regain n]) :: tr, ?_, (.handle, [.regain n]), by simp, by simp⟩
      rw [List.length_cons, List.replicate_succ]
      simp only [gnRun, hstep, h, Option.map_some]
    · have hstep : gnStep cm st .handle = some ({ st with queue := q }, []) := by
        simp only [gnStep, hq, hc, hnum, if_false]
      have hin' : (c.num, want) ∈ q := by
        rcases List.mem_cons.mp hin with h | h
        · exact absurd (congrArg Prod.fst h) hnum
        · exact h
      obtain ⟨s', tr, h, e, he, hm⟩ := ih { st with queue := q } c t rfl hc ht hw hs hp
        (fun e he => hev e (by simp [he])) hin'
      refine ⟨s', (.handle, []) :: tr, ?_, e, by simp [he], hm⟩
      rw [List.length_cons, List.replicate_succ]
      simp only [gnRun, hstep, h, Option.map_some]

private theorem deliver_all {cm : CaseMapping} : ∀ (f : List (Nat × Str)) (st : GnState), st.firing = f →
    ∃ tr, gnRun cm st (List.replicate f.length (.deliver true)) = some ({ st with firing := [], queue := st.queue ++ f }, tr) := by
  intro f
  induction f with
  | nil =>
    intro st hf
    refine ⟨[], ?_⟩
    obtain ⟨w, c, n, fi, q⟩ := st
    simp only at hf
    subst hf
    simp [gnRun]
  | cons e f ih =>
    intro st hf
    have hstep : gnStep cm st (.deliver true) = some ({ st with firing := f, queue := st.queue ++ [e] }, []) := by
      simp [gnStep, hf]
    obtain ⟨tr, h⟩ := ih { st with firing := f, queue := st.queue ++ [e] } rfl
    refine ⟨(.deliver true, []) :: tr, ?_⟩
    rw [List.length_cons, List.replicate_succ]
    simp only [gnRun, hstep, h, Option.map_some, List.append_assoc, List.singleton_append]

private theorem gnRun_append (cm : CaseMapping) : ∀ (a b : List GnOp) (st : GnState),
    gnRun cm st (a ++ b) = (gnRun cm st a).bind fun r => (gnRun cm r.1 b).map fun s => (s.1, r.2 ++ s.2)
  | [], b, st => by
    simp only [List.nil_append, gnRun, Option.bind_some]
    cases gnRun cm st b <;> rfl
  | o :: a, b, st => by
    simp only [List.cons_append, gnRun]
    cases gnStep cm st o with
    | none => rfl
    | some s =>
      simp only
      rw [gnRun_append cm a b s.1]
      cases gnRun cm s.1 a with
      | none => rfl
      | some r =>
        simp only [Option.bind_some, Option.map_some]
        cases gnRun cm r.1 b <;> rfl

/-- Without MONITOR: as long as the user wants the same nick and has not got it, and no tick of the clock was lost, the
bouncer goes on trying. Unless an attempt still waits for its answer, the next tick, once the events before it are
handled, makes it ask for the nick again. (Partial: attempts that the server refuses for another reason never stop
waiting, ticks can be lost, and a nick wanted later is not tried, see below.) -/
theorem C80_timer_partial (cm : CaseMapping) (want : Str) (hw : want ≠ []) (ops : List GnOp) (hn : ∀ op ∈ ops, op.Named)
    (st : GnState) (tr : List (GnOp × List GnOut)) (hrun : gnRun cm (gnInit want) ops = some (st, tr))
    (htry : (gnView cm want ops).trying = true) (hopen : gnOpen cm want tr = none) :
    ∃ (d h : Nat) (st' : GnState) (tr' : List (GnOp × List GnOut)),
      gnRun cm st (.fire :: List.replicate d (.deliver true) ++ List.replicate h .handle) = some (st', tr') ∧
      ∃ e ∈ tr', .regain (gnView cm want ops).want ∈ e.2 := by
  obtain ⟨st0, tr0, h1, h2, h3⟩ := run_rel (cm := cm) hw ops hn
  rw [hrun] at h1
  cases h1
  match hc : st.conn with
  | none => rw [(h3.off hc).2.2] at htry; cases htry
  | some c =>
    have hr := h3.on c hc
    obtain ⟨t, ht, htn, hs, harm, -⟩ := hr.trying htry
    have hp : c.pending = [] := by rw [hr.pend, hopen]; rfl
    generalize gnView cm want ops = v at *
    -- after the tick
    have hfire : ∃ s, gnStep cm st .fire = some (s, []) ∧ ∃ t', s.conn = some { c with timer := some t' } ∧ s.want = v.want ∧
        (∀ e ∈ s.firing ++ s.queue, e.1 = c.num → e.2 = v.want) ∧ (c.num, v.want) ∈ s.firing ++ s.queue := by
      simp only [gnStep, hc, ht]
      cases ha : t.armed with
      | true =>
        refine ⟨_, rfl, _, rfl, h3.want, ?_, ?_⟩
        · intro e he hen
          simp only [List.mem_append, List.mem_singleton] at he
          rcases he with (he | he) | he
          · rw [← htn]; exact hr.events t ht e (by simp [he]) hen
          · rw [he, ← htn]
          · rw [← htn]; exact hr.events t ht e (by simp [he]) hen
        · simp [htn]
      | false =>
        refine ⟨st, rfl, t, ?_, h3.want, ?_, ?_⟩
        · rw [hc, ← ht]
        · intro e he hen
          rw [← htn]; exact hr.events t ht e he hen
        · rcases harm with h | h
          · rw [ha] at h; cases h
          · exact h
    obtain ⟨s, hs1, t', hs2, hs3, hs4, hs5⟩ := hfire
    obtain ⟨trd, hd⟩ := deliver_all (cm := cm) s.firing s rfl
    obtain ⟨s', trh, hh, e, he, hm⟩ := handle_all (cm := cm) (want := v.want) (s.queue ++ s.firing)
      { s with firing := [], queue := s.queue ++ s.firing } { c with timer := some t' } t' rfl hs2 rfl hs3 hs hp
      (fun e he => hs4 e (by simp only [List.mem_append] at he ⊢; exact he.symm))
      (by simp only [List.mem_append] at hs5 ⊢; exact hs5.symm)
    refine ⟨s.firing.length, (s.queue ++ s.firing).length, s', (.fire, []) :: (trd ++ trh), ?_, e, by simp [he], hm⟩
    rw [List.cons_append, gnRun, hs1]
    simp only
    rw [gnRun_append, hd, Option.bind_some, hh]
    rfl

/-- The wanted nick is taken when the bouncer connects, and the server has no MONITOR. -/
private def gnTaken : List GnOp := [.registered true b!"me_", .motdEnd]

private def gnRound : List GnOp := [.fire, .deliver true, .handle]

example : (∀ op ∈ gnTaken ++ gnRound ++ [.inUse b!"me"], op.Named) ∧
    (gnView .ascii b!"me" (gnTaken ++ gnRound ++ [.inUse b!"me"])).trying = true ∧
    (gnRun .ascii (gnInit b!"me") (gnTaken ++ gnRound ++ [.inUse b!"me"])).map (fun r => gnOpen .ascii b!"me" r.2) = some none ∧
    (gnRun .ascii (gnInit b!"me") (gnTaken ++ gnRound)).map (fun r => gnOpen .ascii b!"me" r.2) = some (some b!"me") ∧
    (gnRun .ascii (gnInit b!"me") (gnTaken ++ gnRound ++ [.inUse b!"me"] ++ gnRound)).map (fun r => r.2.flatMap (·.2)) =
      some [.regain b!"me", .regain b!"me"] := by decide +kernel

example : let v := gnView .ascii b!"me" [.registered true b!"me_", .isupport true, .motdEnd]
    v.held = some b!"me_" ∧ v.had = false ∧ ¬ SameNick .ascii b!"me_" v.want ∧ SameNick .ascii b!"ME" v.want := by
  decide +kernel

private theorem quiet_run {cm : CaseMapping} {P : GnState → Prop} {ok : GnOp → Prop}
    (hstep : ∀ st op r, P st → ok op → gnStep cm st op = some r → P r.1 ∧ ∀ n, .regain n ∉ r.2) :
    ∀ (ops : List GnOp) (st st' : GnState) (tr : List (GnOp × List GnOut)), P st → (∀ op ∈ ops, ok op) →
      gnRun cm st ops = some (st', tr) → ∀ e ∈ tr, ∀ n, .regain n ∉ e.2
  | [], _, _, _, _, _, h => by cases h; exact nofun
  | op :: ops, st, st', tr, hP, hok, h => by
    simp only [gnRun] at h
    split at h
    · cases h
    next s outs hs =>
      obtain ⟨h1, h2⟩ := hstep st op _ hP (hok op (by simp)) hs
      obtain ⟨r, hr, he⟩ := Option.map_eq_some_iff.mp h
      cases he
      intro e he
      rcases List.mem_cons.mp he with rfl | he
      · exact h2
      · exact quiet_run hstep ops s r.1 r.2 h1 (fun o ho => hok o (by simp [ho])) hr e he

/-- Once the server has granted an attempt of the clock, the bouncer asks no more until it connects again: it does not
fight over the nick. -/
theorem C80_once (cm : CaseMapping) (want : Str) (hw : want ≠ []) (ops post : List GnOp) (old new a : Str)
    (hn : ∀ op ∈ ops, op.Named) (st st1 st2 : GnState) (tr tr2 : List (GnOp × List GnOut)) (outs : List GnOut)
    (hrun : gnRun cm (gnInit want) ops = some (st, tr)) (hopen : gnOpen cm want tr = some a)
    (hgiven : (gnView cm want ops).given cm a (.serverNick old new) = true)
    (hwant : SameNick cm new (gnView cm want ops).want)
    (hstep : gnStep cm st (.serverNick old new) = some (st1, outs))
    (hpost : ∀ op ∈ post, ∀ b n, op ≠ .registered b n) (hrun2 : gnRun cm st1 post = some (st2, tr2)) :
    ∀ e ∈ tr2, ∀ n, .regain n ∉ e.2 := by
  obtain ⟨st0, tr0, h1, h2, h3⟩ := run_rel (cm := cm) hw ops hn
  rw [hrun] at h1
  cases h1
  refine quiet_run (P := fun s => ∀ c, s.conn = some c → c.timer = none ∧ c.gotMotd = true ∧ c.hasDesired = true)
    (ok := fun op => ∀ b n, op ≠ .registered b n) ?_ post st1 st2 tr2 ?_ hpost hrun2
  · intro s op r hP hop hs
    cases op <;> simp only [gnStep] at hs
    case registered b n => exact absurd rfl (hop b n)
    case disconnected => cases hs; exact ⟨nofun, nofun⟩
    case isupport m =>
      cases hs
      refine ⟨fun c hc => ?_, nofun⟩
      obtain ⟨d, hd, rfl⟩ := Option.map_eq_some_iff.mp hc
      exact hP d hd
    case motdEnd =>
      split at hs
      · cases hs; exact ⟨hP, nofun⟩
      next c hc =>
        rw [if_pos (hP c hc).2.1] at hs
        cases hs; exact ⟨hP, nofun⟩
    case serverNick o n =>
      cases hs
      refine ⟨fun c hc => ?_, nofun⟩
      obtain ⟨d, hd, rfl⟩ := Option.map_eq_some_iff.mp hc
      obtain ⟨e1, e2, e3⟩ := hP d hd
      unfold gnServerNick
      split
      · dsimp only
        split <;> split <;> simp [stopRegain, e1, e2, e3]
      · exact ⟨e1, e2, e3⟩
    case inUse n =>
      split at hs
      · cases hs; exact ⟨hP, nofun⟩
      next c hc =>
        split at hs
        · cases hs
          exact ⟨fun d hd => by cases hd; exact hP c hc, nofun⟩
        · cases hs; exact ⟨hP, by simp⟩
    case refused n =>
      split at hs <;> cases hs
      · exact ⟨hP, nofun⟩
      · exact ⟨hP, by simp⟩
    case monReply =>
      split at hs
      · cases hs; exact ⟨hP, nofun⟩
      next c hc =>
        rw [if_neg (by simp [(hP c hc).2.2])] at hs
        cases hs; exact ⟨hP, nofun⟩
    case clientNick =>
      split at hs <;> cases hs
      · exact ⟨hP, nofun⟩
      · exact ⟨hP, by simp⟩
    case setWant => cases hs; exact ⟨hP, nofun⟩
    case fire =>
      split at hs
      · cases hs; exact ⟨hP, nofun⟩
      next c hc =>
        simp only [(hP c hc).1] at hs
        cases hs; exact ⟨hP, nofun⟩
    case deliver =>
      split at hs
      · cases hs; exact ⟨hP, nofun⟩
      · split at hs <;> cases hs <;> exact ⟨hP, nofun⟩
    case handle =>
      split at hs
      · cases hs; exact ⟨hP, nofun⟩
      · split at hs
        · cases hs; exact ⟨hP, nofun⟩
        next c hc =>
          have hc : s.conn = some c := hc
          split at hs
          · cases hs
            simp only [tryRegain, (hP c hc).1]
            exact ⟨fun d hd => by cases hd; exact hP c hc, nofun⟩
          · cases hs; exact ⟨hP, nofun⟩
  · match hc : st.conn with
    | none => rw [(h3.off hc).2.1] at hopen; cases hopen
    | some c =>
      have hr := h3.on c hc
      have hp : c.pending = a := by rw [hr.pend, hopen]; rfl
      simp only [GnView.given, hr.held, decide_eq_true_eq] at hgiven
      have hg : c.gotMotd = true := by
        cases hg : c.gotMotd with
        | true => rfl
        | false => rw [(hr.early hg).1] at hopen; cases hopen
      simp only [gnStep, Option.some.injEq, Prod.mk.injEq] at hstep
      rw [← hstep.1]
      intro d hd
      simp only [hc, Option.map_some, Option.some.injEq] at hd
      rw [← hd]
      simp [gnServerNick, same_dec, hgiven, hp, h3.want, (same_comm _ _ _).mp hwant, stopRegain, hg]

example : (gnRun .ascii (gnInit b!"me") (gnTaken ++ gnRound)).map (fun r => gnOpen .ascii b!"me" r.2) = some (some b!"me") ∧
    (gnView .ascii b!"me" (gnTaken ++ gnRound)).given .ascii b!"me" (.serverNick b!"me_" b!"me") = true := by decide +kernel

/-- The clock, and nothing else. -/
private def Ticks (ops : List GnOp) : Prop := ∀ op ∈ ops, op = .fire ∨ op = .deliver true ∨ op = .handle

/-- Disagreement ("periodically try to regain our desired nick", upstream.go:1039): if the server refuses one attempt
for another reason than that the nick is in use, say because it is temporarily unavailable, the bouncer never tries
again during this connection. -/
theorem C80_refused_violated (cm : CaseMapping) (post : List GnOp) (hpost : Ticks post) (st : GnState)
    (tr : List (GnOp × List GnOut)) (hrun : gnRun cm (gnInit b!"me") (gnTaken ++ gnRound ++ [.refused b!"me"] ++ post) = some (st, tr)) :
    (gnView cm b!"me" (gnTaken ++ gnRound ++ [.refused b!"me"] ++ post)).trying = true ∧
    ∀ e ∈ tr.drop 6, ∀ n, .regain n ∉ e.2 := by
  constructor
  · have e : ∀ (post : List GnOp) (v : GnView), Ticks post → post.foldl (gnSee cm) v = v := by
      intro post
      induction post with
      | nil => intro v _; rfl
      | cons o post ih =>
        intro v h
        have : gnSee cm v o = v := by
          rcases h o (by simp) with rfl | rfl | rfl <;> rfl
        rw [List.foldl_cons, this]
        exact ih v fun o ho => h o (by simp [ho])
    rw [gnView, List.foldl_append, e _ _ hpost]
    cases cm <;> decide +kernel
  · rw [gnRun_append] at hrun
    have h0 : ∃ s t, gnRun cm (gnInit b!"me") (gnTaken ++ gnRound ++ [.refused b!"me"]) = some (s, t) ∧ t.length = 6 ∧
        ∃ c, s.conn = some c ∧ c.pending = b!"me" ∧ s.want = b!"me" := by
      cases cm <;> exact ⟨_, _, rfl, by decide +kernel, _, rfl, by decide +kernel, by decide +kernel⟩
    obtain ⟨s, t, h1, h2, h3⟩ := h0
    rw [h1, Option.bind_some] at hrun
    obtain ⟨r, hr, he⟩ := Option.map_eq_some_iff.mp hrun
    cases he
    rw [← h2, List.drop_left]
    refine quiet_run (P := fun s => ∃ c, s.conn = some c ∧ c.pending = b!"me" ∧ s.want = b!"me") ?_ post s r.1 r.2 h3 hpost hr
    rintro s op r ⟨c, hc, hp, hw⟩ hop hs
    rcases hop with rfl | rfl | rfl <;> simp only [gnStep, hc] at hs
    · split at hs
      · cases hs; exact ⟨⟨c, hc, hp, hw⟩, nofun⟩
      · split at hs <;> cases hs
        · exact ⟨⟨_, rfl, hp, hw⟩, nofun⟩
        · exact ⟨⟨c, hc, hp, hw⟩, nofun⟩
    · split at hs <;> cases hs
      · exact ⟨⟨c, hc, hp, hw⟩, nofun⟩
      · exact ⟨⟨c, rfl, hp, hw⟩, nofun⟩
    · split at hs
      · cases hs; exact ⟨⟨c, hc, hp, hw⟩, nofun⟩
      · split at hs
        · cases hs
          simp only [tryRegain]
          split
          · exact ⟨⟨_, rfl, hp, hw⟩, nofun⟩
          · split
            · exact ⟨⟨_, rfl, hp, hw⟩, nofun⟩
            · rw [if_pos (by rw [hp]; decide)]
              exact ⟨⟨_, rfl, hp, hw⟩, nofun⟩
        · cases hs; exact ⟨⟨c, rfl, hp, hw⟩, nofun⟩

/-- From then on, when a client itself asks for the nick and is refused, the client is not told. -/
theorem C80_swallowed_violated : ∃ st tr,
    gnRun .ascii (gnInit b!"me") (gnTaken ++ gnRound ++ [.refused b!"me", .clientNick b!"me", .inUse b!"me"]) = some (st, tr) ∧
    (tr.drop 6).map (·.2) = [[.relay b!"me"], []] := ⟨_, _, rfl, by decide +kernel⟩

/-- Disagreement: if the queue of the user is full for a moment when the clock ticks, the bouncer never tries again
during this connection. -/
theorem C80_dropped_violated (cm : CaseMapping) (post : List GnOp) (hpost : Ticks post) (st : GnState)
    (tr : List (GnOp × List GnOut)) (hrun : gnRun cm (gnInit b!"me") (gnTaken ++ [.fire, .deliver false] ++ post) = some (st, tr)) :
    ∀ e ∈ tr, ∀ n, .regain n ∉ e.2 := by
  rw [gnRun_append] at hrun
  have h0 : ∃ s t, gnRun cm (gnInit b!"me") (gnTaken ++ [.fire, .deliver false]) = some (s, t) ∧ (∀ e ∈ t, e.2 = []) ∧
      ∃ c, s.conn = some c ∧ s.firing = [] ∧ s.queue = [] ∧ ∀ t, c.timer = some t → t.armed = false := by
    cases cm <;> refine ⟨_, _, rfl, by decide +kernel, _, rfl, rfl, rfl, ?_⟩ <;> (intro t ht; cases ht; rfl)
  obtain ⟨s, t, h1, h2, h3⟩ := h0
  rw [h1, Option.bind_some] at hrun
  obtain ⟨r, hr, he⟩ := Option.map_eq_some_iff.mp hrun
  cases he
  intro e he
  rcases List.mem_append.mp he with he | he
  · rw [h2 e he]; exact nofun
  refine quiet_run (P := fun s => ∃ c, s.conn = some c ∧ s.firing = [] ∧ s.queue = [] ∧ ∀ t, c.timer = some t → t.armed = false)
    ?_ post s r.1 r.2 h3 hpost hr e he
  rintro s op r ⟨c, hc, hf, hq, ht⟩ hop hs
  rcases hop with rfl | rfl | rfl <;> simp only [gnStep, hc, hf, hq] at hs
  · split at hs
    · cases hs; exact ⟨⟨c, hc, hf, hq, ht⟩, nofun⟩
    next t htt =>
      rw [if_neg (by simp [ht t htt])] at hs
      cases hs; exact ⟨⟨c, hc, hf, hq, ht⟩, nofun⟩
  · cases hs; exact ⟨⟨c, hc, hf, hq, ht⟩, nofun⟩
  · cases hs; exact ⟨⟨c, hc, hf, hq, ht⟩, nofun⟩

/-- Disagreement: a nick that the user wants later, and that is taken then, is never tried again. -/
theorem C80_later_violated (cm : CaseMapping) (post : List GnOp) (hpost : Ticks post) (st : GnState)
    (tr : List (GnOp × List GnOut))
    (hrun : gnRun cm (gnInit b!"me") (gnTaken ++ [.clientNick b!"moi", .inUse b!"moi"] ++ post) = some (st, tr)) :
    ∀ e ∈ tr, ∀ n, .regain n ∉ e.2 := by
  rw [gnRun_append] at hrun
  have h0 : ∃ s t, gnRun cm (gnInit b!"me") (gnTaken ++ [.clientNick b!"moi", .inUse b!"moi"]) = some (s, t) ∧
      (∀ e ∈ t, ∀ n, .regain n ∉ e.2) ∧ (s.want = b!"moi" ∧ (∀ e ∈ s.firing ++ s.queue, e.2 = b!"me") ∧
        ∃ c, s.conn = some c ∧ ∀ t, c.timer = some t → t.nick = b!"me") := by
    cases cm <;> refine ⟨_, _, rfl, by simp, by decide +kernel, by decide +kernel, _, rfl, ?_⟩ <;>
      (intro t ht; cases ht; rfl)
  obtain ⟨s, t, h1, h2, h3⟩ := h0
  rw [h1, Option.bind_some] at hrun
  obtain ⟨r, hr, he⟩ := Option.map_eq_some_iff.mp hrun
  cases he
  intro e he
  rcases List.mem_append.mp he with he | he
  · exact h2 e he
  refine quiet_run (P := fun s => s.want = b!"moi" ∧ (∀ e ∈ s.firing ++ s.queue, e.2 = b!"me") ∧
        ∃ c, s.conn = some c ∧ ∀ t, c.timer = some t → t.nick = b!"me") ?_ post s r.1 r.2 h3 hpost hr e he
  rintro s op r ⟨hw, hev, c, hc, ht⟩ hop hs
  rcases hop with rfl | rfl | rfl <;> simp only [gnStep, hc] at hs
  · split at hs
    · cases hs; exact ⟨⟨hw, hev, c, hc, ht⟩, nofun⟩
    next t htt =>
      split at hs <;> cases hs
      · refine ⟨⟨hw, ?_, _, rfl, ?_⟩, nofun⟩
        · intro e he
          simp only [List.mem_append, List.mem_singleton] at he
          rcases he with (he | rfl) | he
          · exact hev e (by simp [he])
          · exact ht t htt
          · exact hev e (by simp [he])
        · intro t' ht'
          cases ht'
          exact ht t htt
      · exact ⟨⟨hw, hev, c, hc, ht⟩, nofun⟩
  · split at hs
    · cases hs; exact ⟨⟨hw, hev, c, hc, ht⟩, nofun⟩
    next x rest hf =>
      cases hs
      refine ⟨⟨hw, fun e he => hev e ?_, c, rfl, ht⟩, nofun⟩
      rw [hf]
      simp only [List.mem_append, List.mem_cons, List.not_mem_nil, or_false] at he ⊢
      rcases he with he | he | he <;> simp [he]
  · split at hs
    · cases hs; exact ⟨⟨hw, hev, c, hc, ht⟩, nofun⟩
    next num nick rest hq =>
      have hnick : nick = b!"me" := hev (num, nick) (by rw [hq]; simp)
      have hev' : ∀ e ∈ s.firing ++ rest, e.2 = b!"me" := by
        intro e he
        apply hev
        rw [hq]
        simp only [List.mem_append, List.mem_cons] at he ⊢
        rcases he with he | he <;> simp [he]
      split at hs
      · cases hs
        simp only [tryRegain]
        split
        · exact ⟨⟨hw, hev', _, rfl, ht⟩, nofun⟩
        · rw [if_pos (Or.inl (by rw [hw, hnick]; decide))]
          exact ⟨⟨hw, hev', _, rfl, nofun⟩, nofun⟩
      · cases hs; exact ⟨⟨hw, hev', c, rfl, ht⟩, nofun⟩

end Verif.Props
