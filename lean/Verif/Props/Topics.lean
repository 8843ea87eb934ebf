import Verif.Model.Topics
import Verif.Proof.GoNum
import Verif.Proof.Util

/-! # C110: what the clients know of the topic of a channel, its author and its time -/

namespace Verif.Props
open Verif.Model Verif.Spec Verif.Proof

/-! ## Specification -/

/-- The topic of a channel (empty if there is none), and who set it and when, if that is known. -/
structure TopicInfo where
  text : Str
  author : Option (Str × Int)
deriving DecidableEq, Repr

/-- What is to be seen of it: who removed a topic is of no account. -/
def TopicInfo.shown (v : TopicInfo) : Option (Str × Option (Str × Int)) := if v.text = [] then none else some (v.text, v.author)

/-- What the server says: its messages on the topic, since the user joined. A topic is set at the time of the tag of the
message. -/
def tpSaidStep (k : Option TopicInfo) : ToOp → Option TopicInfo
  | .joined => some ⟨[], none⟩
  | .left => none
  | .topicIs t => k.map (fun v => { v with text := t.getD [] })
  | .whoTime _ who time => k.map (fun v => { v with author := some (who, (parseInt64 time).getD 0) })
  | .topic source (some t) tag _ => k.map (fun _ => ⟨t, some (source, tag)⟩)
  | .topic _ none _ _ => k.map (fun v => { v with text := [] })
  | _ => k

/-- What the server has said; `none` while the user is not on the channel. -/
def tpSaid (ops : List ToOp) : Option TopicInfo := ops.foldl tpSaidStep none

/-- What a client learns from a message. -/
def tpHeardStep (k : Option TopicInfo) (m : ToMsg) : Option TopicInfo :=
  if m.command = b!"JOIN" then some ⟨[], none⟩
  else if m.command = b!"PART" then none
  else if m.command = b!"332" then k.map (fun v => { v with text := m.params[2]?.getD [] })
  else if m.command = b!"331" then k.map (fun v => { v with text := [] })
  else if m.command = b!"333" then
    k.map (fun v => { v with author := some (m.params[2]?.getD [], (parseInt64 (m.params[3]?.getD [])).getD 0) })
  else if m.command = b!"TOPIC" then
    match m.params[1]? with
    | some t => k.map (fun _ => ⟨t, some (m.source, m.tag)⟩)
    | none => k.map (fun v => { v with text := [] })
  else k

/-- What a client has learnt; `none` while it is not on the channel. -/
def tpHeard (out : List ToMsg) : Option TopicInfo := out.foldl tpHeardStep none

/-- A source as servers write it: `nick`, `nick!user`, `nick@host` or `nick!user@host`. -/
def WrittenSource (s : Str) : Prop :=
  ∃ nick user host : Str, (33 ∉ nick ∧ 64 ∉ nick) ∧ (user ≠ [] ∧ 64 ∉ user) ∧ host ≠ [] ∧
    (s = nick ∨ s = nick ++ 33 :: user ∨ s = nick ++ 64 :: host ∨ s = nick ++ 33 :: user ++ 64 :: host)

/-- The server writes authors as sources are written and times as numbers. -/
def AuthorsOK (ops : List ToOp) : Prop :=
  ∀ nick who time, ToOp.whoTime nick who time ∈ ops → WrittenSource who ∧ ∃ n, parseInt64 time = some n

/-- The clock of the bouncer and that of the server agree, and count seconds in 64 bits. -/
def ClocksAgree (ops : List ToOp) : Prop :=
  ∀ source t tag now, ToOp.topic source t tag now ∈ ops → tag = now ∧ -(2 ^ 63) ≤ now ∧ now < 2 ^ 63

/-- Whether the server has ended the list of members it gives when the user joins. -/
def tpListed (ops : List ToOp) : Bool :=
  ops.foldl (fun b op => match op with
    | .joined => false
    | .namesEnd => true
    | _ => b) false

/-- When the server tells again what the topic is, or who set it, it tells the same. -/
def RepeatsOK (ops : List ToOp) : Prop :=
  (∀ pre t post v, ops = pre ++ ToOp.topicIs t :: post → tpSaid pre = some v → (tpListed pre = true ∨ v.text ≠ []) →
    t.getD [] = v.text) ∧
  (∀ pre nick who time post v w, ops = pre ++ ToOp.whoTime nick who time :: post → tpSaid pre = some v → tpListed pre = true →
    v.author = some w → w = (who, (parseInt64 time).getD 0))

/-- No client logs in between the user's joining of the channel and the end of the list of its members. -/
def LoginsOK (ops : List ToOp) : Prop :=
  ∀ pre num nick post, ops = pre ++ ToOp.login num nick :: post → tpSaid pre ≠ none → tpListed pre = true

/-- The answer to a client that asks for the topic. -/
def topicReply (name nick : Str) (s : TopicInfo) : List ToMsg :=
  match s.shown with
  | none => [.own b!"331" [nick, name, b!"No topic is set"]]
  | some (t, none) => [.own b!"332" [nick, name, t]]
  | some (t, some (who, time)) => [.own b!"332" [nick, name, t], .own b!"333" [nick, name, who, itoaInt time]]

/-! ## Proofs -/

private theorem said_snoc (ops : List ToOp) (op : ToOp) : tpSaid (ops ++ [op]) = tpSaidStep (tpSaid ops) op := by
  unfold tpSaid; rw [List.foldl_append]; rfl

private theorem heard_append (a b : List ToMsg) : tpHeard (a ++ b) = b.foldl tpHeardStep (tpHeard a) := by
  unfold tpHeard; rw [List.foldl_append]

private theorem run_snoc (name : Str) (d : Bool) (ops : List ToOp) (op : ToOp) :
    toRun name d (ops ++ [op]) = toStep name (toRun name d ops) op := by
  unfold toRun; rw [List.foldl_append]; rfl

private theorem parse_bounds (s : Str) (n : Int) (h : parseInt64 s = some n) : -(2 ^ 63) ≤ n ∧ n < 2 ^ 63 := by
  unfold parseInt64 at h
  split at h
  all_goals
    split at h
    · split at h
      · have := Option.some.inj h; omega
      · cases h
    · cases h

private def InRange (n : Int) : Prop := -(2 ^ 63) ≤ n ∧ n < 2 ^ 63

/-- What is kept is what was said. -/
private def Kept (k : Option TopicInfo) (listed : Bool) (chan : Option ToChan) : Prop :=
  match chan with
  | none => k = none
  | some ch => k = some ⟨ch.topic, ch.who.map (fun w => (w, ch.time))⟩ ∧ (ch.who.isSome = true → InRange ch.time) ∧
      ch.complete = listed

/-- What is known of a channel against what is kept. -/
private def Fits (v : TopicInfo) (ch : ToChan) : Prop :=
  if ch.complete then v.text = ch.topic ∧ (ch.topic ≠ [] → v.author = ch.who.map (fun w => (w, ch.time)))
  else (ch.topic = [] → v.text = []) ∧ (v.author.isSome = true → ch.who.isSome = true)

private def Knows (st : ToState) (c : ToClient) : Prop :=
  (st.detached = true → tpHeard c.out = none) ∧
  ∀ v, tpHeard c.out = some v → ∀ ch, st.chan = some ch → Fits v ch

private def ToInv (k : Option TopicInfo) (listed : Bool) (st : ToState) : Prop :=
  Kept k listed st.chan ∧ ∀ c ∈ st.clients, Knows st c

/-- The condition on one event. -/
private def OpOK (k : Option TopicInfo) (listed : Bool) : ToOp → Prop
  | .topicIs t => ∀ v, k = some v → (listed = true ∨ v.text ≠ []) → t.getD [] = v.text
  | .whoTime _ who time => canonSource who = who ∧ (∃ n, parseInt64 time = some n) ∧
    ∀ v w, k = some v → listed = true → v.author = some w → w = (who, (parseInt64 time).getD 0)
  | .topic _ _ tag now => tag = now ∧ InRange now
  | _ => True

private def listedStep (b : Bool) : ToOp → Bool
  | .joined => false
  | .namesEnd => true
  | _ => b

private theorem listed_snoc (ops : List ToOp) (op : ToOp) : tpListed (ops ++ [op]) = listedStep (tpListed ops) op := by
  unfold tpListed; rw [List.foldl_append]; cases op <;> rfl

/-- What a client hears of a channel makes what it knows fit. -/
private theorem heard_topic (name nick : Str) (ch : ToChan) (v : TopicInfo) (hr : ch.who.isSome = true → InRange ch.time) :
    (toTopicMsgs name nick ch).foldl tpHeardStep (some v) =
      some ⟨ch.topic, if ch.topic = [] then v.author else (ch.who.map (fun w => (w, ch.time))).or v.author⟩ := by
  unfold toTopicMsgs
  by_cases ht : ch.topic = []
  · rw [if_neg (by simpa using ht), if_pos ht, ht]; rfl
  · rw [if_pos ht, if_neg ht]
    cases hw : ch.who with
    | none => rfl
    | some w =>
      have hb := hr (by rw [hw]; rfl)
      show some (⟨ch.topic, some (w, (parseInt64 (itoaInt ch.time)).getD 0)⟩ : TopicInfo) = _
      rw [parseInt64_itoaInt ch.time hb.1 hb.2]
      rfl

private theorem heard_none (l : List ToMsg) (h : ∀ m ∈ l, m.command ≠ b!"JOIN") : l.foldl tpHeardStep none = none := by
  induction l with
  | nil => rfl
  | cons m l ih =>
    rw [List.foldl_cons]
    have : tpHeardStep none m = none := by
      unfold tpHeardStep
      rw [if_neg (h m (by simp))]
      split
      · rfl
      · split
        · rfl
        · split
          · rfl
          · split
            · rfl
            · split
              · split <;> rfl
              · rfl
    rw [this]
    exact ih (fun m hm => h m (by simp [hm]))

private theorem topicMsgs_noJoin (name nick : Str) (ch : ToChan) : ∀ m ∈ toTopicMsgs name nick ch, m.command ≠ b!"JOIN" := by
  intro m hm
  unfold toTopicMsgs at hm
  split at hm
  · cases hw : ch.who with
    | none => rw [hw] at hm; simp at hm; subst hm; simp [ToMsg.own]
    | some w => rw [hw] at hm; simp at hm; rcases hm with rfl | rfl <;> (simp [ToMsg.own])
  · simp at hm; subst hm; simp [ToMsg.own]

private theorem heard_channel (name nick : Str) (ch : ToChan) (v : TopicInfo) (hr : ch.who.isSome = true → InRange ch.time) :
    (toChannelMsgs name nick ch).foldl tpHeardStep (some v) =
      if ch.topic = [] then some v else some ⟨ch.topic, (ch.who.map (fun w => (w, ch.time))).or v.author⟩ := by
  unfold toChannelMsgs
  by_cases ht : ch.topic = []
  · rw [if_neg (by simpa using ht), if_pos ht]; rfl
  · rw [if_pos ht, if_neg ht, heard_topic _ _ _ _ hr, if_neg ht]

private theorem channelMsgs_noJoin (name nick : Str) (ch : ToChan) : ∀ m ∈ toChannelMsgs name nick ch, m.command ≠ b!"JOIN" := by
  intro m hm
  unfold toChannelMsgs at hm
  split at hm
  · exact topicMsgs_noJoin name nick ch m hm
  · cases hm

/-- After a JOIN and the topic of a complete channel. -/
private theorem fits_burst (name nick : Str) (ch : ToChan) (hc : ch.complete = true) (hr : ch.who.isSome = true → InRange ch.time)
    (k : Option TopicInfo) :
    ∃ v, (ToMsg.own b!"JOIN" [name] :: toChannelMsgs name nick ch).foldl tpHeardStep k = some v ∧ Fits v ch := by
  rw [List.foldl_cons]
  have : tpHeardStep k (ToMsg.own b!"JOIN" [name]) = some ⟨[], none⟩ := rfl
  rw [this, heard_channel _ _ _ _ hr]
  split
  · rename_i ht
    exact ⟨_, rfl, by unfold Fits; rw [if_pos hc]; exact ⟨ht.symm, fun h => absurd ht h⟩⟩
  · exact ⟨_, rfl, by unfold Fits; rw [if_pos hc]; exact ⟨rfl, fun _ => by simp⟩⟩

private theorem forward_mem {st : ToState} {m : ToMsg} {c : ToClient} (h : c ∈ (toForward st m).clients) :
    ∃ d ∈ st.clients, c = { d with out := d.out ++ [m] } := by
  obtain ⟨d, hd, rfl⟩ := List.mem_map.1 h
  exact ⟨d, hd, rfl⟩

private theorem inv_step (name : Str) (k : Option TopicInfo) (listed : Bool) (st : ToState) (op : ToOp) (hok : OpOK k listed op)
    (h : ToInv k listed st) : ToInv (tpSaidStep k op) (listedStep listed op) (toStep name st op) := by
  obtain ⟨hk, hc⟩ := h
  cases op with
  | joined =>
    unfold toStep
    dsimp only
    split
    · rename_i hd
      refine ⟨⟨rfl, by simp, rfl⟩, ?_⟩
      intro c hm
      refine ⟨(hc c hm).1, ?_⟩
      intro v hv
      rw [(hc c hm).1 hd] at hv; cases hv
    · rename_i hd
      refine ⟨⟨rfl, by simp, rfl⟩, ?_⟩
      intro c hm
      obtain ⟨d, hdm, rfl⟩ := forward_mem hm
      have e : tpHeard (d.out ++ [ToMsg.own b!"JOIN" [name]]) = some ⟨[], none⟩ := by rw [heard_append]; rfl
      refine ⟨fun h => absurd h hd, ?_⟩
      intro v hv ch hch
      dsimp only at hv
      rw [e] at hv
      have := Option.some.inj hv; subst this
      have := Option.some.inj hch; subst this
      unfold Fits
      simp
  | namesEnd =>
    unfold toStep
    dsimp only
    cases hch : st.chan with
    | none =>
      rw [hch] at hk
      refine ⟨?_, hc⟩
      rw [hch]; exact hk
    | some ch =>
      have hk0 := hk
      rw [hch] at hk
      obtain ⟨k1, k2, k3⟩ := hk
      dsimp only
      split
      · rename_i hcm
        refine ⟨?_, hc⟩
        rw [hch]
        exact ⟨k1, k2, hcm⟩
      · rename_i hcm
        split
        · rename_i hd
          refine ⟨⟨k1, k2, rfl⟩, ?_⟩
          intro c hm
          refine ⟨(hc c hm).1, ?_⟩
          intro v hv
          rw [(hc c hm).1 hd] at hv; cases hv
        · rename_i hd
          refine ⟨⟨k1, k2, rfl⟩, ?_⟩
          intro c hm
          obtain ⟨d, hdm, rfl⟩ := List.mem_map.1 hm
          refine ⟨fun h => absurd h hd, ?_⟩
          intro v hv ch' hch'
          have := Option.some.inj hch'; subst this
          dsimp only at hv
          rw [heard_append] at hv
          cases hh : tpHeard d.out with
          | none => rw [hh, heard_none _ (channelMsgs_noJoin name d.nick _)] at hv; cases hv
          | some v0 =>
            have f0 := (hc d hdm).2 v0 hh ch hch
            unfold Fits at f0
            rw [if_neg hcm] at f0
            rw [hh, heard_channel name d.nick { ch with complete := true } v0 k2] at hv
            dsimp only at hv
            unfold Fits
            rw [if_pos rfl]
            dsimp only
            split at hv
            · rename_i ht
              have := Option.some.inj hv; subst this
              exact ⟨by rw [ht]; exact f0.1 ht, fun h => absurd ht h⟩
            · rename_i ht
              have := Option.some.inj hv; subst this
              refine ⟨rfl, fun _ => ?_⟩
              dsimp only
              cases hw : ch.who with
              | some w => rfl
              | none =>
                cases ha : v0.author with
                | none => rfl
                | some a => have := f0.2 (by rw [ha]; rfl); rw [hw] at this; cases this
  | left =>
    unfold toStep
    dsimp only
    split
    · rename_i hd
      refine ⟨rfl, ?_⟩
      intro c hm
      refine ⟨(hc c hm).1, ?_⟩
      intro v hv
      rw [(hc c hm).1 hd] at hv; cases hv
    · rename_i hd
      refine ⟨rfl, ?_⟩
      intro c hm
      obtain ⟨d, hdm, rfl⟩ := forward_mem hm
      exact ⟨fun h => absurd h hd, by intro v _ ch h; cases h⟩
  | topicIs t =>
    unfold toStep
    show ToInv _ _ (toTopicIs st t)
    unfold toTopicIs
    cases hch : st.chan with
    | none =>
      rw [hch] at hk
      have hk : k = none := hk
      subst hk
      exact ⟨rfl, fun c hm => ⟨(hc c hm).1, by intro v _ ch h; cases h⟩⟩
    | some ch =>
      rw [hch] at hk
      obtain ⟨k1, k2, k3⟩ := hk
      subst k1
      refine ⟨⟨rfl, k2, k3⟩, ?_⟩
      intro c hm
      refine ⟨(hc c hm).1, ?_⟩
      intro v hv ch' hch'
      have := Option.some.inj hch'; subst this
      have f0 := (hc c hm).2 v hv ch hch
      have hrep := hok _ rfl
      dsimp only at hrep
      unfold Fits at f0 ⊢
      dsimp only
      split
      · rename_i hcm
        rw [if_pos hcm] at f0
        rw [hrep (Or.inl (by rw [← k3]; exact hcm))]
        exact f0
      · rename_i hcm
        rw [if_neg hcm] at f0
        refine ⟨fun ht => ?_, f0.2⟩
        by_cases ht0 : ch.topic = []
        · exact f0.1 ht0
        · rw [hrep (Or.inr ht0)] at ht; exact absurd ht ht0
  | whoTime nick who time =>
    obtain ⟨o1, ⟨n, o2⟩, o3⟩ := hok
    unfold toStep
    show ToInv _ _ (toWhoTime name st nick who time)
    unfold toWhoTime
    cases hch : st.chan with
    | none =>
      rw [hch] at hk
      have hk : k = none := hk
      subst hk
      exact ⟨by rw [hch]; rfl, hc⟩
    | some ch =>
      rw [hch] at hk
      obtain ⟨k1, k2, k3⟩ := hk
      subst k1
      dsimp only
      rw [o2]
      dsimp only
      rw [o1]
      have hb := parse_bounds time n o2
      have hkept : Kept (tpSaidStep (some ⟨ch.topic, ch.who.map (fun w => (w, ch.time))⟩) (.whoTime nick who time)) listed
          (some ⟨ch.topic, some who, n, ch.complete⟩) := by
        refine ⟨?_, fun _ => hb, k3⟩
        show some (⟨ch.topic, some (who, (parseInt64 time).getD 0)⟩ : TopicInfo) = _
        rw [o2]
        rfl
      split
      · rename_i hf
        rw [Bool.and_eq_true] at hf
        have hd : st.detached = false := by simpa using hf.2
        refine ⟨hkept, ?_⟩
        intro c hm
        obtain ⟨d, hdm, rfl⟩ := forward_mem hm
        have e : tpHeard (d.out ++ [⟨[], 0, b!"333", [nick, name, who, time]⟩]) =
            (tpHeard d.out).map (fun v => { v with author := some (who, n) }) := by
          rw [heard_append]
          show (tpHeard d.out).map (fun v => { v with author := some (who, (parseInt64 time).getD 0) }) = _
          rw [o2]; rfl
        refine ⟨(fun h => by change st.detached = true at h; rw [hd] at h; cases h), ?_⟩
        intro v hv ch' hch'
        have := Option.some.inj hch'; subst this
        dsimp only at hv
        rw [e] at hv
        cases hh : tpHeard d.out with
        | none => rw [hh] at hv; cases hv
        | some v0 =>
          rw [hh] at hv
          have := Option.some.inj hv; subst this
          have f0 := (hc d hdm).2 v0 hh ch hch
          unfold Fits at f0 ⊢
          dsimp only
          split
          · rename_i hcm
            rw [if_pos hcm] at f0
            exact ⟨f0.1, fun _ => rfl⟩
          · rename_i hcm
            rw [if_neg hcm] at f0
            exact ⟨f0.1, fun _ => rfl⟩
      · rename_i hf
        refine ⟨hkept, ?_⟩
        intro c hm
        refine ⟨(hc c hm).1, ?_⟩
        intro v hv ch' hch'
        have := Option.some.inj hch'; subst this
        have f0 := (hc c hm).2 v hv ch hch
        have hd : st.detached = false := by
          cases hd : st.detached with
          | false => rfl
          | true => rw [(hc c hm).1 hd] at hv; cases hv
        have hw : ∃ w, ch.who = some w := by
          cases hw : ch.who with
          | some w => exact ⟨w, rfl⟩
          | none => rw [hw, hd] at hf; exact absurd rfl hf
        obtain ⟨w, hw⟩ := hw
        unfold Fits at f0 ⊢
        dsimp only
        split
        · rename_i hcm
          rw [if_pos hcm] at f0
          refine ⟨f0.1, fun ht => ?_⟩
          have := o3 _ (w, ch.time) rfl (by rw [← k3]; exact hcm) (by rw [hw]; rfl)
          rw [f0.2 ht, hw]
          rw [o2] at this
          show some (w, ch.time) = some _
          rw [this]; rfl
        · rename_i hcm
          rw [if_neg hcm] at f0
          exact ⟨f0.1, fun _ => rfl⟩
  | topic source t tag now =>
    obtain ⟨rfl, hb⟩ := hok
    unfold toStep
    show ToInv _ _ (toTopic name st source t tag tag)
    unfold toTopic
    cases hch : st.chan with
    | none =>
      rw [hch] at hk
      have hk : k = none := hk
      subst hk
      exact ⟨by rw [hch]; cases t <;> rfl, hc⟩
    | some ch =>
      rw [hch] at hk
      obtain ⟨k1, k2, k3⟩ := hk
      subst k1
      dsimp only
      have hkept : Kept (tpSaidStep (some ⟨ch.topic, ch.who.map (fun w => (w, ch.time))⟩) (.topic source t tag tag)) listed
          (some (match t with
            | some t => { ch with topic := t, who := some source, time := tag }
            | none => { ch with topic := [] })) := by
        cases t with
        | none => exact ⟨rfl, k2, k3⟩
        | some t => exact ⟨rfl, fun _ => hb, k3⟩
      split
      · rename_i hd
        refine ⟨hkept, ?_⟩
        intro c hm
        refine ⟨(hc c hm).1, ?_⟩
        intro v hv
        rw [(hc c hm).1 hd] at hv; cases hv
      · rename_i hd
        refine ⟨hkept, ?_⟩
        intro c hm
        obtain ⟨d, hdm, rfl⟩ := forward_mem hm
        refine ⟨fun h => absurd h hd, ?_⟩
        intro v hv ch' hch'
        have := Option.some.inj hch'; subst this
        dsimp only at hv
        rw [heard_append] at hv
        cases hh : tpHeard d.out with
        | none => rw [hh] at hv; rw [heard_none _ (by simp)] at hv; cases hv
        | some v0 =>
          rw [hh] at hv
          have f0 := (hc d hdm).2 v0 hh ch hch
          cases t with
          | none =>
            have hv : some (⟨[], v0.author⟩ : TopicInfo) = some v := hv
            have := Option.some.inj hv; subst this
            unfold Fits at f0 ⊢
            dsimp only
            split
            · exact ⟨rfl, fun h => absurd rfl h⟩
            · rename_i hcm
              rw [if_neg hcm] at f0
              exact ⟨fun _ => rfl, f0.2⟩
          | some t =>
            have hv : some (⟨t, some (source, tag)⟩ : TopicInfo) = some v := hv
            have := Option.some.inj hv; subst this
            unfold Fits
            dsimp only
            split
            · exact ⟨rfl, fun _ => rfl⟩
            · exact ⟨fun h => h, fun _ => rfl⟩
  | detach =>
    unfold toStep
    dsimp only
    split
    · exact ⟨hk, hc⟩
    · refine ⟨hk, ?_⟩
      intro c hm
      obtain ⟨d, hdm, rfl⟩ := forward_mem hm
      have e : tpHeard (d.out ++ [ToMsg.own b!"PART" [name, b!"Detach"]]) = none := by rw [heard_append]; rfl
      exact ⟨fun _ => e, by intro v hv; dsimp only at hv; rw [e] at hv; cases hv⟩
  | attach =>
    unfold toStep
    dsimp only
    split
    · exact ⟨hk, hc⟩
    · cases hch : st.chan with
      | none =>
        refine ⟨by rw [hch] at hk; exact hk, ?_⟩
        intro c hm
        obtain ⟨d, hdm, rfl⟩ := forward_mem hm
        exact ⟨(fun h => by cases h), by intro v _ ch h; cases h⟩
      | some ch =>
        dsimp only
        split
        · exact ⟨hk, hc⟩
        · rename_i hcm
          have hcm : ch.complete = true := by simpa using hcm
          have hk2 := hk
          rw [hch] at hk2
          refine ⟨hk2, ?_⟩
          intro c hm
          obtain ⟨d, hdm, rfl⟩ := List.mem_map.1 hm
          refine ⟨(fun h => by cases h), ?_⟩
          intro v hv ch' hch'
          have := Option.some.inj hch'; subst this
          dsimp only at hv
          rw [heard_append] at hv
          obtain ⟨v', h1, h2⟩ := fits_burst name d.nick ch hcm hk2.2.1 (tpHeard d.out)
          rw [h1] at hv
          have := Option.some.inj hv; subst this
          exact h2
  | login num nick =>
    unfold toStep
    dsimp only
    split
    · exact ⟨hk, hc⟩
    · refine ⟨hk, ?_⟩
      intro c hm
      rcases List.mem_append.1 hm with hm | hm
      · exact hc c hm
      · rw [List.mem_singleton] at hm
        subst hm
        cases hch : st.chan with
        | none => exact ⟨fun _ => rfl, by intro v _ ch h; cases h⟩
        | some ch =>
          rw [hch] at hk
          dsimp only
          split
          · rename_i hf
            rw [Bool.and_eq_true] at hf
            have hd : st.detached = false := by simpa using hf.2
            refine ⟨(fun h => by change st.detached = true at h; rw [hd] at h; cases h), ?_⟩
            intro v hv ch' hch'
            have := Option.some.inj hch'; subst this
            obtain ⟨v', h1, h2⟩ := fits_burst name nick ch hf.1 hk.2.1 none
            unfold tpHeard at hv
            dsimp only at hv
            rw [h1] at hv
            have := Option.some.inj hv; subst this
            exact h2
          · exact ⟨fun _ => rfl, by intro v hv; cases hv⟩
  | logout num =>
    unfold toStep
    dsimp only
    exact ⟨hk, fun c hm => hc c (List.mem_filter.1 hm).1⟩
  | cTopic num t =>
    unfold toStep
    dsimp only
    cases hfind : st.clients.find? (fun c => c.num = num) with
    | none => exact ⟨hk, hc⟩
    | some c0 =>
      show ToInv k listed (toClientTopic name st c0 t)
      unfold toClientTopic
      cases t with
      | some t => exact ⟨hk, hc⟩
      | none =>
        cases hch : st.chan with
        | none =>
          dsimp only
          refine ⟨by rw [hch] at hk; exact hk, fun c hm => ⟨(hc c hm).1, by intro v _ ch h; cases h⟩⟩
        | some ch =>
          have hk2 := hk
          rw [hch] at hk2
          dsimp only
          refine ⟨hk2, ?_⟩
          intro c hcm
          obtain ⟨d, hdm, rfl⟩ := List.mem_map.1 hcm
          obtain ⟨h1, h2⟩ := hc d hdm
          by_cases hn : d.num = c0.num
          · rw [if_pos hn]
            refine ⟨fun hd => ?_, ?_⟩
            · dsimp only
              rw [heard_append, h1 hd, heard_none _ (topicMsgs_noJoin name d.nick ch)]
            · intro v hv ch' hch'
              have := Option.some.inj hch'; subst this
              dsimp only at hv
              rw [heard_append] at hv
              cases hh : tpHeard d.out with
              | none => rw [hh, heard_none _ (topicMsgs_noJoin name d.nick ch)] at hv; cases hv
              | some v0 =>
                rw [hh, heard_topic name d.nick ch v0 hk2.2.1] at hv
                have := Option.some.inj hv; subst this
                have f0 := h2 v0 hh ch hch
                unfold Fits at f0 ⊢
                dsimp only
                split
                · rename_i hcm
                  rw [if_pos hcm] at f0
                  refine ⟨rfl, fun ht => ?_⟩
                  rw [if_neg ht, f0.2 ht]
                  cases ch.who <;> rfl
                · rename_i hcm
                  rw [if_neg hcm] at f0
                  refine ⟨fun h => h, fun ha => ?_⟩
                  split at ha
                  · exact f0.2 ha
                  · cases hw : ch.who with
                    | some w => rfl
                    | none => rw [hw] at ha; exact hw ▸ f0.2 ha
          · rw [if_neg hn]
            refine ⟨h1, fun v hv ch' hch' => h2 v hv ch' (by rw [hch]; exact hch')⟩

private theorem cut_absent (sep : Byte) : ∀ s : Str, sep ∉ s → cut sep s = (s, none)
  | [], _ => rfl
  | c :: s, h => by
    have h1 : c ≠ sep := fun e => h (by rw [e]; exact List.mem_cons_self)
    have h2 := cut_absent sep s (fun hm => h (List.mem_cons_of_mem _ hm))
    unfold cut
    rw [if_neg h1, h2]

private theorem cut_present (sep : Byte) (t : Str) : ∀ s : Str, sep ∉ s → cut sep (s ++ sep :: t) = (s, some t)
  | [], _ => by unfold cut; simp
  | c :: s, h => by
    have h1 : c ≠ sep := fun e => h (by rw [e]; exact List.mem_cons_self)
    have h2 := cut_present sep t s (fun hm => h (List.mem_cons_of_mem _ hm))
    show cut sep (c :: (s ++ sep :: t)) = _
    unfold cut
    rw [if_neg h1, h2]

private theorem written_canon {s : Str} (h : WrittenSource s) : canonSource s = s := by
  obtain ⟨nick, user, host, ⟨h1, h2⟩, ⟨h3, h4⟩, h5, h⟩ := h
  have h6 : 64 ∉ nick ++ 33 :: user := by simp [h2, h4]
  unfold canonSource
  rcases h with rfl | rfl | rfl | rfl
  · simp [cut_absent 64 _ h2, cut_absent 33 _ h1]
  · simp [cut_absent 64 _ h6, cut_present 33 user _ h1, h3]
  · simp [cut_present 64 host _ h2, cut_absent 33 _ h1, h5]
  · simp only [cut_present 64 host _ h6, cut_present 33 user _ h1]
    simp [h3, h5]

private theorem ok_prefix {ops : List ToOp} {op : ToOp} (h1 : AuthorsOK (ops ++ [op])) (h2 : ClocksAgree (ops ++ [op]))
    (h3 : RepeatsOK (ops ++ [op])) :
    (AuthorsOK ops ∧ ClocksAgree ops ∧ RepeatsOK ops) ∧ OpOK (tpSaid ops) (tpListed ops) op := by
  refine ⟨⟨fun n w t hm => h1 n w t (by simp [hm]), fun a b c d hm => h2 a b c d (by simp [hm]), ?_, ?_⟩, ?_⟩
  · intro pre t post v he hs
    exact h3.1 pre t (post ++ [op]) v (by rw [he]; simp) hs
  · intro pre nick who time post v w he hs
    exact h3.2 pre nick who time (post ++ [op]) v w (by rw [he]; simp) hs
  · cases op with
    | topicIs t => exact fun v hv hl => h3.1 ops t [] v rfl hv hl
    | whoTime nick who time =>
      obtain ⟨a, b⟩ := h1 nick who time (by simp)
      exact ⟨written_canon a, b, fun v w hv hl hw => h3.2 ops nick who time [] v w rfl hv hl hw⟩
    | topic source t tag now => exact h2 source t tag now (by simp)
    | _ => trivial

private theorem inv_run (name : Str) (d : Bool) (ops : List ToOp) (h1 : AuthorsOK ops) (h2 : ClocksAgree ops) (h3 : RepeatsOK ops) :
    ToInv (tpSaid ops) (tpListed ops) (toRun name d ops) := by
  induction ops using snocInd with
  | nil => exact ⟨rfl, by intro c hc; cases hc⟩
  | snoc ops op ih =>
    obtain ⟨⟨a, b, c⟩, e⟩ := ok_prefix h1 h2 h3
    rw [said_snoc, run_snoc, listed_snoc]
    exact inv_step name _ _ _ op e (ih a b c)

/-- A client that is on the channel with the bouncer. -/
private def OnIt (st : ToState) : Prop :=
  st.detached = false → st.chan.isSome = true → ∀ c ∈ st.clients, (tpHeard c.out).isSome = true

private theorem heard_stays (l : List ToMsg) (k : Option TopicInfo) (hk : k.isSome = true) (h : ∀ m ∈ l, m.command ≠ b!"PART") :
    (l.foldl tpHeardStep k).isSome = true := by
  induction l generalizing k with
  | nil => exact hk
  | cons m l ih =>
    rw [List.foldl_cons]
    refine ih _ ?_ (fun m hm => h m (by simp [hm]))
    unfold tpHeardStep
    split
    · rfl
    · rw [if_neg (h m (by simp))]
      split
      · simpa using hk
      · split
        · simpa using hk
        · split
          · simpa using hk
          · split
            · split <;> simpa using hk
            · exact hk

private theorem topicMsgs_noPart (name nick : Str) (ch : ToChan) : ∀ m ∈ toTopicMsgs name nick ch, m.command ≠ b!"PART" := by
  intro m hm
  unfold toTopicMsgs at hm
  split at hm
  · cases hw : ch.who with
    | none => rw [hw] at hm; simp at hm; subst hm; simp [ToMsg.own]
    | some w => rw [hw] at hm; simp at hm; rcases hm with rfl | rfl <;> (simp [ToMsg.own])
  · simp at hm; subst hm; simp [ToMsg.own]

private theorem channelMsgs_noPart (name nick : Str) (ch : ToChan) : ∀ m ∈ toChannelMsgs name nick ch, m.command ≠ b!"PART" := by
  intro m hm
  unfold toChannelMsgs at hm
  split at hm
  · exact topicMsgs_noPart name nick ch m hm
  · cases hm

private theorem on_forward {st : ToState} {m : ToMsg} (h : ∀ c ∈ st.clients, (tpHeard c.out).isSome = true) (hm : m.command ≠ b!"PART") :
    ∀ c ∈ (toForward st m).clients, (tpHeard c.out).isSome = true := by
  intro c hc
  obtain ⟨d, hd, rfl⟩ := forward_mem hc
  dsimp only
  rw [heard_append]
  exact heard_stays _ _ (h d hd) (by intro m' hm'; rw [List.mem_singleton] at hm'; subst hm'; exact hm)

private theorem on_join {st : ToState} {name : Str} : ∀ c ∈ (toForward st (.own b!"JOIN" [name])).clients, (tpHeard c.out).isSome = true := by
  intro c hc
  obtain ⟨d, hd, rfl⟩ := forward_mem hc
  dsimp only
  rw [heard_append]
  rfl

private theorem on_burst (name nick : Str) (ch : ToChan) (k : Option TopicInfo) :
    ((ToMsg.own b!"JOIN" [name] :: toChannelMsgs name nick ch).foldl tpHeardStep k).isSome = true := by
  rw [List.foldl_cons]
  exact heard_stays _ _ rfl (channelMsgs_noPart name nick ch)

/-- Completeness is as listed, whatever the server says. -/
private theorem complete_listed (name : Str) (d : Bool) (ops : List ToOp) :
    (∀ ch, (toRun name d ops).chan = some ch → ch.complete = tpListed ops) ∧
    ((toRun name d ops).chan.isSome = (tpSaid ops).isSome) := by
  induction ops using snocInd with
  | nil => exact ⟨(by intro ch h; cases h), rfl⟩
  | snoc ops op ih =>
    rw [run_snoc, listed_snoc, said_snoc]
    generalize toRun name d ops = st at *
    obtain ⟨ih, ih2⟩ := ih
    cases op with
    | joined =>
      unfold toStep; dsimp only
      split <;> exact ⟨(by intro ch h; have := Option.some.inj h; subst this; rfl), rfl⟩
    | namesEnd =>
      unfold toStep; dsimp only
      cases hch : st.chan with
      | none => exact ⟨(by intro ch h; dsimp only at h; rw [hch] at h; cases h), by dsimp only; exact ih2⟩
      | some c0 =>
        rw [hch] at ih2
        dsimp only
        split
        · rename_i hcm
          exact ⟨(by intro ch h; rw [hch] at h; have := Option.some.inj h; subst this; exact hcm), by rw [hch]; exact ih2⟩
        · split <;> exact ⟨(by intro ch h; have := Option.some.inj h; subst this; rfl), ih2⟩
    | left =>
      unfold toStep; dsimp only
      split <;> exact ⟨(by intro ch h; cases h), rfl⟩
    | topicIs t =>
      show (∀ ch, (toTopicIs st t).chan = some ch → _) ∧ _
      unfold toTopicIs
      constructor
      · intro ch h
        cases hch : st.chan with
        | none => rw [hch] at h; cases h
        | some c0 => rw [hch] at h; have := Option.some.inj h; subst this; exact ih c0 hch
      · show (st.chan.map _).isSome = ((tpSaid ops).map _).isSome
        rw [Option.isSome_map, Option.isSome_map]; exact ih2
    | whoTime nick who time =>
      have e : (tpSaidStep (tpSaid ops) (.whoTime nick who time)).isSome = (tpSaid ops).isSome := by
        show ((tpSaid ops).map _).isSome = _
        rw [Option.isSome_map]
      rw [e, ← ih2]
      show (∀ ch, (toWhoTime name st nick who time).chan = some ch → ch.complete = tpListed ops) ∧
        (toWhoTime name st nick who time).chan.isSome = st.chan.isSome
      unfold toWhoTime
      cases hch : st.chan with
      | none => exact ⟨(by intro ch h; dsimp only at h; rw [hch] at h; cases h), by dsimp only; rw [hch]⟩
      | some c0 =>
        dsimp only
        split
        · exact ⟨(by intro ch h; have := Option.some.inj h; subst this; exact ih c0 hch), rfl⟩
        · split <;> exact ⟨(by intro ch h; have := Option.some.inj h; subst this; exact ih c0 hch), rfl⟩
    | topic source t tag now =>
      have e : (tpSaidStep (tpSaid ops) (.topic source t tag now)).isSome = (tpSaid ops).isSome := by
        cases t
        · show ((tpSaid ops).map _).isSome = _
          rw [Option.isSome_map]
        · show ((tpSaid ops).map _).isSome = _
          rw [Option.isSome_map]
      rw [e, ← ih2]
      show (∀ ch, (toTopic name st source t tag now).chan = some ch → ch.complete = tpListed ops) ∧
        (toTopic name st source t tag now).chan.isSome = st.chan.isSome
      unfold toTopic
      cases hch : st.chan with
      | none => exact ⟨(by intro ch h; dsimp only at h; rw [hch] at h; cases h), by dsimp only; rw [hch]⟩
      | some c0 =>
        dsimp only
        cases t <;> dsimp only <;> split <;>
          exact ⟨(by intro ch h; have := Option.some.inj h; subst this; exact ih c0 hch), rfl⟩
    | detach => unfold toStep; dsimp only; split <;> exact ⟨ih, ih2⟩
    | attach =>
      unfold toStep; dsimp only
      split
      · exact ⟨ih, ih2⟩
      · cases hch : st.chan with
        | none => rw [hch] at ih2; exact ⟨(by intro ch h; cases h), ih2⟩
        | some c0 =>
          dsimp only
          split
          · exact ⟨ih, ih2⟩
          · exact ⟨(fun ch h => ih ch (by first | exact h | exact (hch.trans h))), by first | exact ih2 | (rw [hch] at ih2; exact ih2)⟩
    | login num nick => unfold toStep; dsimp only; split <;> exact ⟨ih, ih2⟩
    | logout num => exact ⟨ih, ih2⟩
    | cTopic num t =>
      unfold toStep; dsimp only
      cases hfind : st.clients.find? (fun c => c.num = num) with
      | none => exact ⟨ih, ih2⟩
      | some c0 =>
        show (∀ ch, (toClientTopic name st c0 t).chan = some ch → _) ∧ _
        unfold toClientTopic
        cases t with
        | some t => exact ⟨ih, ih2⟩
        | none =>
          cases hch : st.chan with
          | none => exact ⟨(by intro ch h; dsimp only at h; try rw [hch] at h
                               cases h), by dsimp only; first | exact ih2 | (rw [hch] at ih2; exact ih2)⟩
          | some c1 =>
            exact ⟨(fun ch h => ih ch (by first | exact h | exact (hch.trans h))), by dsimp only; first | exact ih2 | (rw [hch] at ih2; exact ih2)⟩

private theorem on_step (name : Str) (d : Bool) (ops : List ToOp) (op : ToOp)
    (hlog : ∀ num nick, op = .login num nick → tpSaid ops ≠ none → tpListed ops = true) (h : OnIt (toRun name d ops)) :
    OnIt (toStep name (toRun name d ops) op) := by
  obtain ⟨hcl, hsm⟩ := complete_listed name d ops
  generalize toRun name d ops = st at *
  intro hd hs
  cases op with
  | joined =>
    unfold toStep at hd ⊢; dsimp only at hd ⊢
    split at hd
    · rename_i h'; rw [h'] at hd; cases hd
    · rename_i h'; rw [if_neg h']; exact on_join
  | namesEnd =>
    unfold toStep at hd hs ⊢; dsimp only at hd hs ⊢
    cases hch : st.chan with
    | none => rw [hch] at hs; dsimp only at hs; rw [hch] at hs; cases hs
    | some ch =>
      rw [hch] at hd
      dsimp only at hd ⊢
      split
      · rename_i hcm
        rw [if_pos hcm] at hd
        exact h hd (by rw [hch]; rfl)
      · rename_i hcm
        rw [if_neg hcm] at hd
        split
        · rename_i h'
          rw [if_pos h'] at hd
          exact h hd (by rw [hch]; rfl)
        · rename_i h'
          intro c hc
          obtain ⟨e, he, rfl⟩ := List.mem_map.1 hc
          dsimp only
          rw [heard_append]
          exact heard_stays _ _ (h (by simpa using h') (by rw [hch]; rfl) e he) (channelMsgs_noPart name e.nick _)
  | left =>
    unfold toStep at hs; dsimp only at hs
    split at hs <;> cases hs
  | topicIs t =>
    have hs : (st.chan.map _).isSome = true := hs
    rw [Option.isSome_map] at hs
    exact h hd hs
  | whoTime nick who time =>
    have hd : (toWhoTime name st nick who time).detached = false := hd
    have hs : (toWhoTime name st nick who time).chan.isSome = true := hs
    show ∀ c ∈ (toWhoTime name st nick who time).clients, _
    unfold toWhoTime at hd hs ⊢
    cases hch : st.chan with
    | none => rw [hch] at hs; dsimp only at hs; rw [hch] at hs; cases hs
    | some c0 =>
      rw [hch] at hd
      have hst : st.chan.isSome = true := by rw [hch]; rfl
      dsimp only at hd ⊢
      split
      · rename_i hp
        rw [hp] at hd
        exact h hd hst
      · rename_i sec hp
        rw [hp] at hd
        dsimp only at hd
        split
        · rename_i hf
          rw [if_pos hf] at hd
          exact on_forward (h hd hst) (by simp)
        · rename_i hf
          rw [if_neg hf] at hd
          exact h hd hst
  | topic source t tag now =>
    have hd : (toTopic name st source t tag now).detached = false := hd
    have hs : (toTopic name st source t tag now).chan.isSome = true := hs
    show ∀ c ∈ (toTopic name st source t tag now).clients, _
    unfold toTopic at hd hs ⊢
    cases hch : st.chan with
    | none => rw [hch] at hs; dsimp only at hs; rw [hch] at hs; cases hs
    | some c0 =>
      rw [hch] at hd
      have hst : st.chan.isSome = true := by rw [hch]; rfl
      dsimp only at hd ⊢
      split
      · rename_i hf
        rw [if_pos hf] at hd
        exact h hd hst
      · rename_i hf
        rw [if_neg hf] at hd
        exact on_forward (h hd hst) (by simp)
  | detach =>
    unfold toStep at hd hs ⊢; dsimp only at hd hs ⊢
    split
    · rename_i h'; rw [if_pos h', h'] at hd; cases hd
    · rename_i h'; rw [if_neg h'] at hd; cases hd
  | attach =>
    unfold toStep at hd hs ⊢; dsimp only at hd hs ⊢
    split
    · rename_i h'
      exact h (by simpa using h') (by rw [if_pos h'] at hs; exact hs)
    · rename_i h'
      rw [if_neg h'] at hd hs
      cases hch : st.chan with
      | none => exact on_join
      | some ch =>
        rw [hch] at hd
        dsimp only at hd ⊢
        split
        · rename_i hcm
          rw [if_pos hcm] at hd
          rw [hd] at h'; exact absurd rfl h'
        · intro c hc
          obtain ⟨e, he, rfl⟩ := List.mem_map.1 hc
          dsimp only
          rw [heard_append]
          exact on_burst name e.nick ch _
  | login num nick =>
    unfold toStep at hd hs ⊢; dsimp only at hd hs ⊢
    split
    · rename_i h'
      rw [if_pos h'] at hd hs
      exact h hd hs
    · rename_i h'
      rw [if_neg h'] at hd hs
      intro c hc
      rcases List.mem_append.1 hc with hc | hc
      · exact h hd hs c hc
      · rw [List.mem_singleton] at hc
        subst hc
        dsimp only at hd hs ⊢
        cases hch : st.chan with
        | none => rw [hch] at hs; cases hs
        | some ch =>
          dsimp only
          have hl : tpListed ops = true := hlog num nick rfl (by
            intro hn; rw [hn, hs] at hsm; cases hsm)
          rw [if_pos (by rw [hcl ch hch, hl, hd]; rfl)]
          exact on_burst name nick ch none
  | logout num =>
    exact fun c hc => h hd hs c (List.mem_filter.1 hc).1
  | cTopic num t =>
    unfold toStep at hd hs ⊢; dsimp only at hd hs ⊢
    cases hfind : st.clients.find? (fun c => c.num = num) with
    | none => rw [hfind] at hd hs; exact h hd hs
    | some c0 =>
      rw [hfind] at hd hs
      have hd : (toClientTopic name st c0 t).detached = false := hd
      have hs : (toClientTopic name st c0 t).chan.isSome = true := hs
      show ∀ c ∈ (toClientTopic name st c0 t).clients, _
      unfold toClientTopic at hd hs ⊢
      cases t with
      | some t => exact h hd hs
      | none =>
        cases hch : st.chan with
        | none => rw [hch] at hs; cases hs
        | some ch =>
          rw [hch] at hd
          have h := h hd (by rw [hch]; rfl)
          intro c hc
          obtain ⟨e, he, rfl⟩ := List.mem_map.1 hc
          split
          · dsimp only
            rw [heard_append]
            exact heard_stays _ _ (h e he) (topicMsgs_noPart name e.nick ch)
          · exact h e he

private theorem on_run (name : Str) (d : Bool) (ops : List ToOp) (hl : LoginsOK ops) : OnIt (toRun name d ops) := by
  induction ops using snocInd with
  | nil => intro _ h; cases h
  | snoc ops op ih =>
    rw [run_snoc]
    refine on_step name d ops op ?_ (ih ?_)
    · intro num nick he hs
      subst he
      exact hl ops num nick [] rfl hs
    · intro pre num nick post he hs
      exact hl pre num nick (post ++ [op]) (by rw [he]; simp) hs

/-! ## Theorems -/

/-- Every client that is on an attached channel knows its topic, and who set it and when, as the server has told. -/
theorem C110_known (name : Str) (d : Bool) (ops : List ToOp) (h1 : AuthorsOK ops) (h2 : ClocksAgree ops) (h3 : RepeatsOK ops)
    (hdet : (toRun name d ops).detached = false) (hl : tpListed ops = true) (s : TopicInfo) (hs : tpSaid ops = some s)
    (c : ToClient) (hc : c ∈ (toRun name d ops).clients) :
    (∀ v, tpHeard c.out = some v → v.shown = s.shown) ∧ (LoginsOK ops → ∃ v, tpHeard c.out = some v) := by
  obtain ⟨hk, hi⟩ := inv_run name d ops h1 h2 h3
  refine ⟨?_, ?_⟩
  · intro v hv
    cases hch : (toRun name d ops).chan with
    | none => rw [hch] at hk; have hk : tpSaid ops = none := hk; rw [hs] at hk; cases hk
    | some ch =>
      rw [hch] at hk
      have f := (hi c hc).2 v hv ch hch
      unfold Fits at f
      rw [if_pos (by rw [hk.2.2, hl])] at f
      have := hk.1
      rw [hs] at this
      have := Option.some.inj this
      subst this
      unfold TopicInfo.shown
      rw [f.1]
      dsimp only
      split
      · rfl
      · rename_i ht; rw [f.2 ht]
  · intro hlog
    have := on_run name d ops hlog hdet (by rw [(complete_listed name d ops).2, hs]; rfl) c hc
    exact Option.isSome_iff_exists.1 this

/-- A client that asks is told the topic, its author and its time, as the server has told, and nobody else is told
anything. -/
theorem C110_asked (name : Str) (d : Bool) (ops : List ToOp) (h1 : AuthorsOK ops) (h2 : ClocksAgree ops) (h3 : RepeatsOK ops)
    (num : Nat) (s : TopicInfo) (hs : tpSaid ops = some s) :
    toRun name d (ops ++ [.cTopic num none]) = { toRun name d ops with
      clients := (toRun name d ops).clients.map (fun c =>
        if c.num = num then { c with out := c.out ++ topicReply name c.nick s } else c) } := by
  obtain ⟨hk, -⟩ := inv_run name d ops h1 h2 h3
  rw [run_snoc]
  generalize toRun name d ops = st at *
  cases hch : st.chan with
  | none => rw [hch] at hk; have hk : tpSaid ops = none := hk; rw [hs] at hk; cases hk
  | some ch =>
    rw [hch] at hk
    have := hk.1
    rw [hs] at this
    have := Option.some.inj this
    subst this
    have e : ∀ nick, toTopicMsgs name nick ch = topicReply name nick ⟨ch.topic, ch.who.map (fun w => (w, ch.time))⟩ := by
      intro nick
      unfold toTopicMsgs topicReply TopicInfo.shown
      dsimp only
      by_cases ht : ch.topic = []
      · rw [if_neg (by simpa using ht), if_pos ht]
      · rw [if_pos ht, if_neg ht]
        cases ch.who <;> rfl
    unfold toStep
    dsimp only
    cases hfind : st.clients.find? (fun c => c.num = num) with
    | none =>
      dsimp only
      have : ∀ s, st.clients.map (fun c => if c.num = num then { c with out := c.out ++ topicReply name c.nick s } else c) =
          st.clients := by
        intro s
        conv => rhs; rw [← List.map_id st.clients]
        apply List.map_congr_left
        intro c hc
        have := List.find?_eq_none.1 hfind c hc
        rw [if_neg (by simpa using this)]
        rfl
      rw [this]
    | some c0 =>
      have hn : c0.num = num := by simpa using List.find?_some hfind
      dsimp only
      unfold toClientTopic
      rw [hch]
      dsimp only
      congr 1
      apply List.map_congr_left
      intro c _
      rw [hn, e]

/-- A topic a client sets goes to the server as it is, and nothing else happens before the server tells. -/
theorem C110_set (name : Str) (d : Bool) (ops : List ToOp) (num : Nat) (t : Str)
    (hc : ∃ c ∈ (toRun name d ops).clients, c.num = num) :
    toRun name d (ops ++ [.cTopic num (some t)]) =
      { toRun name d ops with sent := (toRun name d ops).sent ++ [(num, [name, t])] } := by
  rw [run_snoc]
  generalize toRun name d ops = st at *
  obtain ⟨c, hcm, hn⟩ := hc
  unfold toStep
  dsimp only
  cases hfind : st.clients.find? (fun c => c.num = num) with
  | none => exact absurd hn (by simpa using List.find?_eq_none.1 hfind c hcm)
  | some c0 =>
    have h0 : c0.num = num := by simpa using List.find?_some hfind
    unfold toClientTopic
    dsimp only
    rw [h0]

/-- A question about a channel the bouncer is not on goes to the server. -/
theorem C110_elsewhere (name : Str) (d : Bool) (ops : List ToOp) (num : Nat) (hc : ∃ c ∈ (toRun name d ops).clients, c.num = num)
    (hs : tpSaid ops = none) :
    toRun name d (ops ++ [.cTopic num none]) =
      { toRun name d ops with sent := (toRun name d ops).sent ++ [(num, [name])] } := by
  have hsm := (complete_listed name d ops).2
  rw [run_snoc]
  generalize toRun name d ops = st at *
  have hch : st.chan = none := by
    rw [hs] at hsm
    cases h : st.chan with
    | none => rfl
    | some _ => rw [h] at hsm; cases hsm
  obtain ⟨c, hcm, hn⟩ := hc
  unfold toStep
  dsimp only
  cases hfind : st.clients.find? (fun c => c.num = num) with
  | none => exact absurd hn (by simpa using List.find?_eq_none.1 hfind c hcm)
  | some c0 =>
    have h0 : c0.num = num := by simpa using List.find?_some hfind
    unfold toClientTopic
    rw [hch]
    dsimp only
    rw [h0]

/-- The user joins, and the server tells the topic; then someone changes it, while the channel is detached; it is attached
again and another client comes. -/
private def topicDay : List ToOp :=
  [.login 1 b!"me", .joined, .topicIs (some b!"old"), .whoTime b!"me" b!"al!a@h" b!"1000", .namesEnd, .detach,
    .topic b!"bo!b@h" (some b!"new") 2000 2000, .attach, .login 2 b!"me"]

/-- The hypotheses of `C110_known` and `C110_asked` are met: both clients know of the new topic. -/
example : (toRun b!"#c" false topicDay).detached = false ∧ tpListed topicDay = true ∧
    tpSaid topicDay = some ⟨b!"new", some (b!"bo!b@h", 2000)⟩ ∧
    (toRun b!"#c" false topicDay).clients.map (fun c => tpHeard c.out) =
      [some ⟨b!"new", some (b!"bo!b@h", 2000)⟩, some ⟨b!"new", some (b!"bo!b@h", 2000)⟩] ∧
    topicReply b!"#c" b!"me" ⟨b!"new", some (b!"bo!b@h", 2000)⟩ =
      [.own b!"332" [b!"me", b!"#c", b!"new"], .own b!"333" [b!"me", b!"#c", b!"bo!b@h", b!"2000"]] := by
  decide +kernel

example : AuthorsOK topicDay ∧ ClocksAgree topicDay := by
  refine ⟨?_, ?_⟩
  · intro nick who time h
    simp [topicDay] at h
    obtain ⟨-, rfl, rfl⟩ := h
    exact ⟨⟨b!"al", b!"a", b!"h", by decide, by decide, by decide, .inr (.inr (.inr rfl))⟩, 1000, by decide +kernel⟩
  · intro source t tag now h
    simp [topicDay] at h
    obtain ⟨-, -, rfl, rfl⟩ := h
    decide

private theorem split_at {ops pre post : List ToOp} {x : ToOp} (h : ops = pre ++ x :: post) :
    ∃ i, i < ops.length ∧ ops[i]? = some x ∧ pre = ops.take i := by
  subst h
  exact ⟨pre.length, by simp, by simp, by simp⟩

example : RepeatsOK topicDay ∧ LoginsOK topicDay := by
  refine ⟨⟨?_, ?_⟩, ?_⟩
  · intro pre t post v h hs hl
    obtain ⟨i, hi, hx, rfl⟩ := split_at h
    have hi : i < 9 := hi
    have hi : i = 0 ∨ i = 1 ∨ i = 2 ∨ i = 3 ∨ i = 4 ∨ i = 5 ∨ i = 6 ∨ i = 7 ∨ i = 8 := by omega
    rcases hi with rfl | rfl | rfl | rfl | rfl | rfl | rfl | rfl | rfl <;> try cases hx
    exfalso
    have hs : some _ = some v := hs
    have := Option.some.inj hs; subst this
    rcases hl with hl | hl
    · cases hl
    · exact hl rfl
  · intro pre nick who time post v w h hs hl
    obtain ⟨i, hi, hx, rfl⟩ := split_at h
    have hi : i < 9 := hi
    have hi : i = 0 ∨ i = 1 ∨ i = 2 ∨ i = 3 ∨ i = 4 ∨ i = 5 ∨ i = 6 ∨ i = 7 ∨ i = 8 := by omega
    rcases hi with rfl | rfl | rfl | rfl | rfl | rfl | rfl | rfl | rfl <;> try cases hx
    cases hl
  · intro pre num nick post h hs
    obtain ⟨i, hi, hx, rfl⟩ := split_at h
    have hi : i < 9 := hi
    have hi : i = 0 ∨ i = 1 ∨ i = 2 ∨ i = 3 ∨ i = 4 ∨ i = 5 ∨ i = 6 ∨ i = 7 ∨ i = 8 := by omega
    rcases hi with rfl | rfl | rfl | rfl | rfl | rfl | rfl | rfl | rfl <;> try cases hx
    · exact absurd rfl hs
    · rfl

/-- The clock of the bouncer is used for the time of a topic, not the time the server gives (a TODO in the code): a client
that hears of the change and one that comes later do not agree on when it was made. -/
theorem C110_clock_violated :
    ∃ ops s, AuthorsOK ops ∧ RepeatsOK ops ∧ LoginsOK ops ∧ tpListed ops = true ∧ tpSaid ops = some s ∧
      (toRun b!"#c" false ops).detached = false ∧
      (toRun b!"#c" false ops).clients.map (fun c => tpHeard c.out) =
        [some ⟨b!"t", some (b!"al!a@h", 1000)⟩, some ⟨b!"t", some (b!"al!a@h", 1007)⟩] := by
  refine ⟨[.login 1 b!"me", .joined, .namesEnd, .topic b!"al!a@h" (some b!"t") 1000 1007, .login 2 b!"me"], _, ?_, ?_, ?_,
    by decide +kernel, rfl, by decide +kernel, by decide +kernel⟩
  · intro n w t h; simp at h
  · constructor
    · intro pre t post v he
      have : ToOp.topicIs t ∈ pre ++ ToOp.topicIs t :: post := by simp
      rw [← he] at this
      simp at this
    · intro pre a b c post v w he
      have : ToOp.whoTime a b c ∈ pre ++ ToOp.whoTime a b c :: post := by simp
      rw [← he] at this
      simp at this
  · intro pre num nick post he hs
    match pre, he with
    | [], he => exact absurd rfl hs
    | [_], he => simp at he
    | [_, _], he => simp at he
    | [_, _, _], he => simp at he
    | [a, b, c, e], he =>
      simp at he
      obtain ⟨rfl, rfl, rfl, rfl, -⟩ := he
      rfl
    | _ :: _ :: _ :: _ :: _ :: _, he => simp at he

/-- If the server gives a time that is not a number, the author is kept all the same: a client that asks is told that the topic
was set in the year one. -/
theorem C110_time_violated :
    (toRun b!"#c" false [.login 1 b!"me", .joined, .topicIs (some b!"t"), .whoTime b!"me" b!"al" b!"?", .cTopic 1 none]).clients.map
      (fun c => c.out) =
      [[.own b!"JOIN" [b!"#c"], .own b!"332" [b!"me", b!"#c", b!"t"], .own b!"333" [b!"me", b!"#c", b!"al", b!"-62135596800"]]] := by
  decide +kernel

end Verif.Props
