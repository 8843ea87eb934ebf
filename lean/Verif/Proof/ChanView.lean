import Verif.Spec.ChanView
import Verif.Props.GenMsg
import Verif.Proof.GoMap
import Verif.Proof.GoStr
import Verif.Proof.Util

/-! Lemmas for C75: the reader of `Verif.Spec.ChanView` on each command, and the relation between
what a direct client knows, what the bouncer stores and what each of its clients knows. -/

namespace Verif.Proof
open Verif.Model Verif.Spec

variable {cm : CaseMapping} {syms k : Str}

/-! ### The reader, command by command -/

theorem read_welcome (v : View) (s n : Str) (r : List Str) :
    readMsg cm syms k v ⟨s, b!"001", n :: r⟩ = { v with nick := n } := by
  unfold readMsg; dsimp only; rw [if_pos rfl]

theorem read_nick (v : View) (s n : Str) (r : List Str) :
    readMsg cm syms k v ⟨s, b!"NICK", n :: r⟩ =
      { v with
        nick := if casemap cm s = casemap cm v.nick then n else v.nick
        members := fun x =>
          if x = casemap cm n then v.members (casemap cm s) || v.members x
          else if x = casemap cm s then false else v.members x } := by
  unfold readMsg; dsimp only
  rw [if_neg (by decide), if_pos rfl]
  simp only [decide_eq_true_eq]

theorem read_join (v : View) (s n : Str) (r : List Str) :
    readMsg cm syms k v ⟨s, b!"JOIN", n :: r⟩ =
      if casemap cm n = k then
        if casemap cm s = casemap cm v.nick then
          { v with joined := true, listed := false, topic := [], members := fun _ => false }
        else if v.joined = true then
          { v with members := fun x => if x = casemap cm s then true else v.members x }
        else v
      else v := by
  unfold readMsg; dsimp only
  rw [if_neg (by decide), if_neg (by decide), if_pos rfl]
  simp only [decide_eq_true_eq]

theorem read_part (v : View) (s n : Str) (r : List Str) :
    readMsg cm syms k v ⟨s, b!"PART", n :: r⟩ =
      if casemap cm n = k then
        if casemap cm s = casemap cm v.nick then
          { v with joined := false, listed := false, topic := [], members := fun _ => false }
        else { v with members := fun x => if x = casemap cm s then false else v.members x }
      else v := by
  unfold readMsg; dsimp only
  rw [if_neg (by decide), if_neg (by decide), if_neg (by decide), if_pos rfl]
  simp only [decide_eq_true_eq]

theorem read_kick (v : View) (s n u : Str) (r : List Str) :
    readMsg cm syms k v ⟨s, b!"KICK", n :: u :: r⟩ =
      if casemap cm n = k then
        if casemap cm u = casemap cm v.nick then
          { v with joined := false, listed := false, topic := [], members := fun _ => false }
        else { v with members := fun x => if x = casemap cm u then false else v.members x }
      else v := by
  unfold readMsg; dsimp only
  rw [if_neg (by decide), if_neg (by decide), if_neg (by decide), if_neg (by decide), if_pos rfl]
  simp only [decide_eq_true_eq]

theorem read_quit (v : View) (s : Str) (r : List Str) :
    readMsg cm syms k v ⟨s, b!"QUIT", r⟩ =
      { v with members := fun x => if x = casemap cm s then false else v.members x } := by
  unfold readMsg; dsimp only
  rw [if_neg (by decide), if_neg (by decide), if_neg (by decide), if_neg (by decide),
    if_neg (by decide), if_pos rfl]

theorem read_topic (v : View) (s n : Str) (r : List Str) :
    readMsg cm syms k v ⟨s, b!"TOPIC", n :: r⟩ =
      if casemap cm n = k ∧ v.joined = true then { v with topic := r.headD [] } else v := by
  unfold readMsg; dsimp only
  rw [if_neg (by decide), if_neg (by decide), if_neg (by decide), if_neg (by decide),
    if_neg (by decide), if_neg (by decide), if_pos rfl]
  simp only [decide_eq_true_eq]
  cases r <;> rfl

theorem read_331 (v : View) (s t n : Str) (r : List Str) :
    readMsg cm syms k v ⟨s, b!"331", t :: n :: r⟩ =
      if casemap cm n = k ∧ v.joined = true then { v with topic := [] } else v := by
  unfold readMsg; dsimp only
  rw [if_neg (by decide), if_neg (by decide), if_neg (by decide), if_neg (by decide),
    if_neg (by decide), if_neg (by decide), if_neg (by decide), if_pos rfl]
  simp only [decide_eq_true_eq]

theorem read_332 (v : View) (s t n u : Str) (r : List Str) :
    readMsg cm syms k v ⟨s, b!"332", t :: n :: u :: r⟩ =
      if casemap cm n = k ∧ v.joined = true then { v with topic := u } else v := by
  unfold readMsg; dsimp only
  rw [if_neg (by decide), if_neg (by decide), if_neg (by decide), if_neg (by decide),
    if_neg (by decide), if_neg (by decide), if_neg (by decide), if_neg (by decide), if_pos rfl]
  simp only [decide_eq_true_eq]

theorem read_353 (v : View) (s t u n w : Str) (r : List Str) :
    readMsg cm syms k v ⟨s, b!"353", t :: u :: n :: w :: r⟩ =
      if casemap cm n = k ∧ v.joined = true then
        { v with members := fun x =>
            v.members x || (nameWords w).any fun y => casemap cm (bareName syms y) = x }
      else v := by
  unfold readMsg; dsimp only
  rw [if_neg (by decide), if_neg (by decide), if_neg (by decide), if_neg (by decide),
    if_neg (by decide), if_neg (by decide), if_neg (by decide), if_neg (by decide),
    if_neg (by decide), if_pos rfl]
  simp only [decide_eq_true_eq]

theorem read_366 (v : View) (s t n : Str) (r : List Str) :
    readMsg cm syms k v ⟨s, b!"366", t :: n :: r⟩ =
      if casemap cm n = k ∧ v.joined = true then { v with listed := true } else v := by
  unfold readMsg; dsimp only
  rw [if_neg (by decide), if_neg (by decide), if_neg (by decide), if_neg (by decide),
    if_neg (by decide), if_neg (by decide), if_neg (by decide), if_neg (by decide),
    if_neg (by decide), if_neg (by decide), if_pos rfl]
  simp only [decide_eq_true_eq]

theorem read_nil (v : View) (s c : Str) (h : c ≠ b!"QUIT") : readMsg cm syms k v ⟨s, c, []⟩ = v := by
  unfold readMsg; dsimp only
  repeat' split
  all_goals first | rfl | (rename_i h'; exact absurd h' h) | contradiction

/-! ### Sending -/

theorem read_trim (v : View) (m : VMsg) (h : m.command = b!"JOIN") :
    readMsg cm syms k v { m with params := m.params.take 1 } = readMsg cm syms k v m := by
  obtain ⟨s, c, ps⟩ := m
  dsimp only at h
  subst h
  cases ps with
  | nil => rfl
  | cons p ps => simp only [List.take_succ_cons, List.take_zero]; rw [read_join, read_join]

theorem viewOf_snoc (l : List VMsg) (m : VMsg) :
    viewOf cm syms k (l ++ [m]) = readMsg cm syms k (viewOf cm syms k l) m := by
  simp [viewOf, List.foldl_append]

theorem view_send (c : VcClient) (m : VMsg) :
    viewOf cm syms k (c.send m).out = readMsg cm syms k (viewOf cm syms k c.out) m := by
  unfold VcClient.send
  split
  · rename_i h
    rw [viewOf_snoc, read_trim _ _ h.1]
  · rw [viewOf_snoc]

theorem send_nick (c : VcClient) (m : VMsg) : (c.send m).nick = c.nick := by
  unfold VcClient.send; split <;> rfl

theorem send_noNames (c : VcClient) (m : VMsg) : (c.send m).noNames = c.noNames := by
  unfold VcClient.send; split <;> rfl

theorem view_sendAll (c : VcClient) (ms : List VMsg) :
    viewOf cm syms k (c.sendAll ms).out = ms.foldl (readMsg cm syms k) (viewOf cm syms k c.out) ∧
      (c.sendAll ms).nick = c.nick ∧ (c.sendAll ms).noNames = c.noNames := by
  unfold VcClient.sendAll
  induction ms generalizing c with
  | nil => exact ⟨rfl, rfl, rfl⟩
  | cons m ms ih =>
    simp only [List.foldl_cons]
    obtain ⟨h1, h2, h3⟩ := ih (c.send m)
    rw [view_send] at h1
    exact ⟨h1, h2.trans (send_nick c m), h3.trans (send_noNames c m)⟩

/-! ### Names -/

theorem bareName_ranks {ranks n : Str} (hr : ∀ c ∈ ranks, c ∈ syms) (hn : NickOk syms n) :
    bareName syms (ranks ++ n) = n := by
  unfold bareName
  induction ranks with
  | nil =>
    obtain ⟨h0, -, h2⟩ := hn
    cases n with
    | nil => exact absurd rfl h0
    | cons c n => simp [h2 c rfl]
  | cons c ranks ih =>
    rw [List.cons_append, List.dropWhile_cons_of_pos (by simp [hr c (by simp)])]
    exact ih (fun d hd => hr d (by simp [hd]))

theorem parse_ranks {avail : List Model.Membership} {ranks n : Str}
    (hr : ranks.Sublist (avail.map (·.pfx))) (hn : NickOk (avail.map (·.pfx)) n) :
    (parseMembershipPrefix avail (ranks ++ n)).2 = n ∧
      ∀ m ∈ (parseMembershipPrefix avail (ranks ++ n)).1, m ∈ avail := by
  induction avail generalizing ranks with
  | nil =>
    have : ranks = [] := by simpa using hr
    subst this
    simp [parseMembershipPrefix]
  | cons a avail ih =>
    have hn' : NickOk (avail.map (·.pfx)) n :=
      ⟨hn.1, hn.2.1, fun c hc h => hn.2.2 c hc (by simp at h ⊢; right; exact h)⟩
    cases ranks with
    | nil =>
      cases n with
      | nil => exact absurd rfl hn.1
      | cons c n =>
        have hc : c ≠ a.pfx := fun h => hn.2.2 c rfl (by simp [h])
        simp only [List.nil_append, parseMembershipPrefix, if_neg hc]
        obtain ⟨h1, h2⟩ := ih (ranks := []) (List.nil_sublist _) hn'
        exact ⟨h1, fun m hm => List.mem_cons_of_mem _ (h2 m hm)⟩
    | cons c ranks =>
      simp only [List.cons_append, parseMembershipPrefix]
      split
      · rename_i hc
        subst hc
        simp only [List.map_cons] at hr
        obtain ⟨h1, h2⟩ := ih (List.cons_sublist_cons.1 hr) hn'
        exact ⟨h1, fun m hm => by
          rcases List.mem_cons.1 hm with rfl | hm
          · simp
          · exact List.mem_cons_of_mem _ (h2 m hm)⟩
      · rename_i hc
        simp only [List.map_cons] at hr
        have hr' : (c :: ranks).Sublist (avail.map (·.pfx)) := by
          cases hr with
          | cons _ h => exact h
          | cons_cons _ h => exact absurd rfl hc
        obtain ⟨h1, h2⟩ := ih hr' hn'
        exact ⟨h1, fun m hm => List.mem_cons_of_mem _ (h2 m hm)⟩

theorem splitSpace_eq (s : Str) : splitSpace s = nameWords s := by
  have h : splitByte 32 s = splitSep 32 s := by
    induction s with
    | nil => rfl
    | cons c s ih => unfold splitByte splitSep; rw [ih]; split <;> first | rfl | (split <;> rfl)
  unfold splitSpace nameWords
  rw [h]
  congr 1
  funext w
  cases w <;> rfl

/-- A member of the channel `k` as the bouncer stores it. -/
def MemOk (cm : CaseMapping) (avail : List Model.Membership) (e : Str × Str × MembershipSet) : Prop :=
  e.1 = casemap cm e.2.1 ∧ NickOk (avail.map (·.pfx)) e.2.1 ∧ ∀ m ∈ e.2.2, m ∈ avail

/-- 353 replies read one after the other. -/
theorem fold_353 (replies : List Msg) (ch : Str) (v : View)
    (h : ∀ m ∈ replies, ∃ st l, m = ⟨b!"353", [b!"*", st, ch, l]⟩) :
    (replies.map fun m => (⟨[], m.command, m.params⟩ : VMsg)).foldl (readMsg cm syms k) v =
      if casemap cm ch = k ∧ v.joined = true then
        { v with members := fun x => (v.members x ||
            (replies.flatMap (fun m => (m.params.drop 3).flatMap nameWords)).any
              (fun y => casemap cm (bareName syms y) = x)) }
      else v := by
  induction replies generalizing v with
  | nil => simp
  | cons m replies ih =>
    obtain ⟨st, l, rfl⟩ := h m (by simp)
    simp only [List.map_cons, List.foldl_cons]
    rw [read_353, ih _ (fun m hm => h m (by simp [hm]))]
    by_cases hc : casemap cm ch = k ∧ v.joined = true
    · rw [if_pos hc, if_pos ⟨hc.1, hc.2⟩, if_pos hc]
      simp [List.any_append, Bool.or_assoc]
    · rw [if_neg hc, if_neg hc, if_neg hc]

theorem nameWords_listParam (l : Str) (h : ∀ w ∈ listParam 32 l, w ≠ []) :
    nameWords l = listParam 32 l := by
  unfold listParam at h ⊢
  unfold nameWords
  split
  · rename_i hl; subst hl; rfl
  · rename_i hl
    rw [if_neg hl] at h
    exact List.filter_eq_self.2 (by simpa using h)

theorem namesStep_shape (ch : Str) (status : Byte) (members : List Str) (st : List Msg × Str)
    (h : ∀ m ∈ st.1, ∃ l, m = namesMsg ch status l) :
    ∀ m ∈ (members.foldl (namesStep ch status) st).1, ∃ l, m = namesMsg ch status l := by
  induction members generalizing st with
  | nil => exact h
  | cons s members ih =>
    simp only [List.foldl_cons]
    apply ih
    unfold namesStep
    dsimp only
    intro m hm
    split at hm
    · rcases List.mem_append.1 hm with hm | hm
      · exact h m hm
      · simp only [List.mem_singleton] at hm; exact ⟨_, hm⟩
    · exact h m hm

theorem names_shape (ch : Str) (status : Byte) (members : List Str) :
    ∃ replies, generateNamesReply ch status members
        = replies ++ [⟨b!"366", [b!"*", ch, b!"End of /NAMES list"]⟩] ∧
      ∀ m ∈ replies, ∃ st l, m = ⟨b!"353", [b!"*", st, ch, l]⟩ := by
  unfold generateNamesReply
  dsimp only
  have h := namesStep_shape ch status members ([], []) (by simp)
  refine ⟨_, rfl, fun m hm => ?_⟩
  split at hm
  · rcases List.mem_append.1 hm with hm | hm
    · obtain ⟨l, hl⟩ := h m hm; exact ⟨_, l, hl⟩
    · simp only [List.mem_singleton] at hm; exact ⟨_, _, hm⟩
  · obtain ⟨l, hl⟩ := h m hm; exact ⟨_, l, hl⟩

theorem flatMap_congr' {α β : Type} {l : List α} {f g : α → List β} (h : ∀ a ∈ l, f a = g a) :
    l.flatMap f = l.flatMap g := by
  induction l with
  | nil => rfl
  | cons a l ih =>
    rw [List.flatMap_cons, List.flatMap_cons, h a (by simp), ih fun b hb => h b (by simp [hb])]

theorem format_ranks {avail : List Model.Membership} {ms : MembershipSet} (h : ∀ m ∈ ms, m ∈ avail)
    (mp : Bool) : ∀ c ∈ formatMemberPrefix ms mp, c ∈ avail.map (·.pfx) := by
  intro c hc
  unfold formatMemberPrefix at hc
  cases mp with
  | false =>
    cases ms with
    | nil => simp at hc
    | cons m ms =>
      simp at hc
      subst hc
      exact List.mem_map_of_mem (h m (by simp))
  | true =>
    simp at hc
    obtain ⟨m, hm, rfl⟩ := hc
    exact List.mem_map_of_mem (h m hm)

theorem fold_names (avail : List Model.Membership) (hsp : 32 ∉ avail.map (·.pfx)) (c : VcClient)
    (ch : VcChan) (v : View)
    (hw : casemap cm ch.name = k → ∀ e ∈ ch.members, MemOk cm avail e) :
    (vcNamesMsgs c ch).foldl (readMsg cm (avail.map (·.pfx)) k) v =
      if casemap cm ch.name = k ∧ v.joined = true then
        { v with listed := true, members := fun x => (v.members x || (ch.members.get x).isSome) }
      else v := by
  unfold vcNamesMsgs
  by_cases hk : casemap cm ch.name = k
  · have hw := hw hk
    obtain ⟨replies, hr, hflat, hsh⟩ := Props.C08_names_lossless ch.name ch.status
      (ch.members.map fun e => formatMemberPrefix e.2.2 c.multiPrefix ++ e.2.1) (by
        intro s hs
        obtain ⟨e, he, rfl⟩ := List.mem_map.1 hs
        obtain ⟨-, hn, hm⟩ := hw e he
        refine ⟨fun h => hn.1 (List.append_eq_nil_iff.1 h).2, fun h => ?_⟩
        rcases List.mem_append.1 h with h | h
        · exact hsp (format_ranks hm _ _ h)
        · exact hn.2.1 h)
    rw [hr, List.map_append, List.foldl_append,
      fold_353 replies ch.name _ (fun m hm => by obtain ⟨l, h, -⟩ := hsh m hm; exact ⟨_, l, h⟩)]
    simp only [List.map_cons, List.map_nil, List.foldl_cons, List.foldl_nil]
    rw [read_366]
    by_cases hj : v.joined = true
    · simp only [hk, hj, and_self, if_true]
      have hflat' : replies.flatMap (fun m => (m.params.drop 3).flatMap nameWords) =
          ch.members.map fun e => formatMemberPrefix e.2.2 c.multiPrefix ++ e.2.1 := by
        rw [← hflat]
        refine flatMap_congr' fun m hm => ?_
        obtain ⟨l, rfl, -⟩ := hsh m hm
        simp only [List.drop_succ_cons, List.drop_zero, List.flatMap_cons, List.flatMap_nil,
          List.append_nil]
        refine nameWords_listParam l fun w hw' => ?_
        have : w ∈ ch.members.map fun e => formatMemberPrefix e.2.2 c.multiPrefix ++ e.2.1 := by
          rw [← hflat]
          exact List.mem_flatMap.2 ⟨_, hm, by simpa using hw'⟩
        obtain ⟨e, he, rfl⟩ := List.mem_map.1 this
        exact fun h => (hw e he).2.1.1 (List.append_eq_nil_iff.1 h).2
      rw [hflat']
      congr 1
      funext x
      congr 1
      rw [Bool.eq_iff_iff, Option.isSome_iff_ne_none, Ne, mget_none_iff, Decidable.not_not]
      simp only [List.any_map, List.any_eq_true, List.mem_map, Function.comp, decide_eq_true_eq]
      constructor
      · rintro ⟨e, he, h⟩
        rw [bareName_ranks (format_ranks (hw e he).2.2 _) (hw e he).2.1] at h
        exact ⟨e, he, (hw e he).1.trans h⟩
      · rintro ⟨e, he, h⟩
        refine ⟨e, he, ?_⟩
        rw [bareName_ranks (format_ranks (hw e he).2.2 _) (hw e he).2.1]
        exact (hw e he).1.symm.trans h
    · simp [hk, hj]
  · obtain ⟨replies, hr, hsh⟩ := names_shape ch.name ch.status
      (ch.members.map fun e => formatMemberPrefix e.2.2 c.multiPrefix ++ e.2.1)
    rw [hr, List.map_append, List.foldl_append, fold_353 replies ch.name _ hsh]
    simp only [List.map_cons, List.map_nil, List.foldl_cons, List.foldl_nil]
    rw [read_366]
    simp [hk]

theorem fold_topic (c : VcClient) (ch : VcChan) (v : View) :
    (vcTopicMsgs c ch).foldl (readMsg cm syms k) v =
      if casemap cm ch.name = k ∧ v.joined = true then { v with topic := ch.topic } else v := by
  unfold vcTopicMsgs
  split
  · simp only [List.foldl_cons, List.foldl_nil]; rw [read_332]
  · rename_i h
    simp only [Ne, Decidable.not_not] at h
    simp only [List.foldl_cons, List.foldl_nil]; rw [read_331, h]

theorem fold_channel (avail : List Model.Membership) (hsp : 32 ∉ avail.map (·.pfx)) (c : VcClient)
    (ch : VcChan) (v : View)
    (hw : casemap cm ch.name = k → ∀ e ∈ ch.members, MemOk cm avail e) :
    (vcChannelMsgs c ch).foldl (readMsg cm (avail.map (·.pfx)) k) v =
      if casemap cm ch.name = k ∧ v.joined = true then
        { v with
          topic := if ch.topic ≠ [] then ch.topic else v.topic
          listed := if c.noNames = true then v.listed else true
          members := if c.noNames = true then v.members
            else fun x => (v.members x || (ch.members.get x).isSome) }
      else v := by
  unfold vcChannelMsgs
  rw [List.foldl_append]
  by_cases hk : casemap cm ch.name = k ∧ v.joined = true
  · rw [if_pos hk]
    by_cases ht : ch.topic ≠ []
    · rw [if_pos ht, if_pos ht, fold_topic, if_pos hk]
      split
      · simp
      · rw [fold_names avail hsp c ch _ hw, if_pos ⟨hk.1, hk.2⟩]
    · rw [if_neg ht, if_neg ht]
      split
      · simp
      · simp only [List.foldl_nil]
        rw [fold_names avail hsp c ch _ hw, if_pos hk]
  · rw [if_neg hk]
    have h1 : (if ch.topic ≠ [] then vcTopicMsgs c ch else []).foldl
        (readMsg cm (avail.map (·.pfx)) k) v = v := by
      split
      · rw [fold_topic, if_neg hk]
      · rfl
    rw [h1]
    split
    · rfl
    · rw [fold_names avail hsp c ch _ hw, if_neg hk]

/-! ### The relation between a direct client and a client of the bouncer -/

/-- `d` is what a direct client knows, `v` what a client of the bouncer knows. -/
def VR0 (strict : Prop) (d v : View) : Prop :=
  d.joined = true → (strict → v.joined = true) ∧ (v.joined = true →
    if d.listed = true then v.listed = true ∧ v.topic = d.topic ∧ (∀ x, v.members x = d.members x)
    else (d.topic = [] → v.topic = []) ∧ ∀ x, v.members x = true → d.members x = true)

theorem VR0_of_not {strict : Prop} {d v : View} (h : d.joined = false) : VR0 strict d v := by
  intro h'; rw [h] at h'; cases h'

theorem read_nick_field {v : View} {m : VMsg} (h1 : m.command ≠ b!"001") (h2 : m.command ≠ b!"NICK") :
    (readMsg cm syms k v m).nick = v.nick := by
  unfold readMsg
  dsimp only
  rw [if_neg h1, if_neg h2]
  repeat' split
  all_goals rfl

theorem VR0_members {strict : Prop} {d v : View} (h : VR0 strict d v) (n n' : Str)
    (f : (Str → Bool) → Str → Bool)
    (hf : ∀ a b : Str → Bool, (∀ x, a x = true → b x = true) → ∀ x, f a x = true → f b x = true) :
    VR0 strict { d with nick := n, members := f d.members } { v with nick := n', members := f v.members } := by
  intro hj
  obtain ⟨ha, hb⟩ := h hj
  refine ⟨ha, fun hv => ?_⟩
  have hb := hb hv
  dsimp only
  split at hb <;> rename_i hl
  · rw [if_pos hl]
    refine ⟨hb.1, hb.2.1, fun x => ?_⟩
    rw [show v.members = d.members from funext hb.2.2]
  · rw [if_neg hl]
    exact ⟨hb.1, hf _ _ hb.2⟩

theorem VR0_topic {strict : Prop} {d v : View} (h : VR0 strict d v) (t : Str) :
    VR0 strict { d with topic := t } { v with topic := t } := by
  intro hj
  obtain ⟨ha, hb⟩ := h hj
  refine ⟨ha, fun hv => ?_⟩
  have hb := hb hv
  dsimp only
  split at hb <;> rename_i hl
  · rw [if_pos hl]; exact ⟨hb.1, rfl, hb.2.2⟩
  · rw [if_neg hl]; exact ⟨fun h => h, hb.2⟩

theorem VR0_left {strict : Prop} {d v v' : View} (h : VR0 strict d v) (hv : v.joined = false)
    (hv' : v'.joined = false) : VR0 strict d v' := by
  intro hj
  refine ⟨fun hs => ?_, fun h' => ?_⟩
  · rw [(h hj).1 hs] at hv; cases hv
  · rw [hv'] at h'; cases h'

theorem read_joined (v : View) (s c : Str) (ps : List Str) (h1 : ¬ c = b!"JOIN") (h2 : ¬ c = b!"PART")
    (h3 : ¬ c = b!"KICK") : (readMsg cm syms k v ⟨s, c, ps⟩).joined = v.joined := by
  unfold readMsg
  dsimp only
  rw [if_neg h1, if_neg h2, if_neg h3]
  repeat' split
  all_goals rfl

/-- Both clients read the same message. -/
theorem VR0_read {strict : Prop} {d v : View} (h : VR0 strict d v) (hn : d.nick = v.nick) (m : VMsg)
    (h1 : m.command ≠ b!"001") (h366 : m.command = b!"366" → d.joined = false) :
    VR0 strict (readMsg cm syms k d m) (readMsg cm syms k v m) := by
  obtain ⟨s, c, ps⟩ := m
  dsimp only at h1 h366
  by_cases hq : c = b!"QUIT"
  · subst hq
    rw [read_quit, read_quit]
    exact VR0_members h d.nick v.nick (fun a x => if x = casemap cm s then false else a x)
      (fun a b hab x hx => by grind)
  cases ps with
  | nil => rw [read_nil _ _ _ hq, read_nil _ _ _ hq]; exact h
  | cons p ps =>
  by_cases hc : c = b!"NICK"
  · subst hc
    rw [read_nick, read_nick]
    exact VR0_members h _ _ (fun a x => if x = casemap cm p then a (casemap cm s) || a x
      else if x = casemap cm s then false else a x) (fun a b hab x hx => by grind)
  by_cases hcj : c = b!"JOIN"
  · subst hcj
    rw [read_join, read_join, hn]
    split
    · split
      · intro _
        exact ⟨fun _ => rfl, fun _ => by rw [if_neg (by simp)]; exact ⟨fun _ => rfl, fun x hx => hx⟩⟩
      · by_cases hd : d.joined = true
        · rw [if_pos hd]
          by_cases hv : v.joined = true
          · rw [if_pos hv]
            exact VR0_members h d.nick v.nick (fun a x => if x = casemap cm s then true else a x)
              (fun a b hab x hx => by grind)
          · rw [if_neg hv]
            simp only [Bool.not_eq_true] at hv
            intro _
            refine ⟨(h hd).1, fun h' => ?_⟩
            rw [hv] at h'; cases h'
        · rw [if_neg hd]
          exact VR0_of_not (by simpa using hd)
    · exact h
  by_cases hcp : c = b!"PART"
  · subst hcp
    rw [read_part, read_part, hn]
    split
    · split
      · exact VR0_of_not rfl
      · exact VR0_members h d.nick v.nick (fun a x => if x = casemap cm s then false else a x)
          (fun a b hab x hx => by grind)
    · exact h
  by_cases hck : c = b!"KICK"
  · subst hck
    cases ps with
    | nil => exact h
    | cons u ps =>
    rw [read_kick, read_kick, hn]
    split
    · split
      · exact VR0_of_not rfl
      · exact VR0_members h d.nick v.nick (fun a x => if x = casemap cm u then false else a x)
          (fun a b hab x hx => by grind)
    · exact h
  by_cases hd : ¬ d.joined = true
  · refine VR0_of_not ?_
    have : (readMsg cm syms k d ⟨s, c, p :: ps⟩).joined = d.joined := read_joined _ _ _ _ hcj hcp hck
    rw [this]; simpa using hd
  rw [Decidable.not_not] at hd
  by_cases hv : ¬ v.joined = true
  · simp only [Bool.not_eq_true] at hv
    have h2 : (readMsg cm syms k d ⟨s, c, p :: ps⟩).joined = d.joined := read_joined _ _ _ _ hcj hcp hck
    have h3 : (readMsg cm syms k v ⟨s, c, p :: ps⟩).joined = v.joined := read_joined _ _ _ _ hcj hcp hck
    intro _
    rw [h3]
    refine ⟨(h hd).1, fun h' => ?_⟩
    rw [hv] at h'; cases h'
  rw [Decidable.not_not] at hv
  by_cases hc : c = b!"TOPIC"
  · subst hc
    rw [read_topic, read_topic]
    by_cases hk : casemap cm p = k
    · rw [if_pos ⟨hk, hd⟩, if_pos ⟨hk, hv⟩]; exact VR0_topic h _
    · rw [if_neg (fun h => hk h.1), if_neg (fun h => hk h.1)]; exact h
  by_cases hc : c = b!"331"
  · subst hc
    cases ps with
    | nil => exact h
    | cons u ps =>
    rw [read_331, read_331]
    by_cases hk : casemap cm u = k
    · rw [if_pos ⟨hk, hd⟩, if_pos ⟨hk, hv⟩]; exact VR0_topic h _
    · rw [if_neg (fun h => hk h.1), if_neg (fun h => hk h.1)]; exact h
  by_cases hc : c = b!"332"
  · subst hc
    cases ps with
    | nil => exact h
    | cons u ps =>
    cases ps with
    | nil => exact h
    | cons t ps =>
    rw [read_332, read_332]
    by_cases hk : casemap cm u = k
    · rw [if_pos ⟨hk, hd⟩, if_pos ⟨hk, hv⟩]; exact VR0_topic h _
    · rw [if_neg (fun h => hk h.1), if_neg (fun h => hk h.1)]; exact h
  by_cases hc : c = b!"353"
  · subst hc
    cases ps with
    | nil => exact h
    | cons u ps =>
    cases ps with
    | nil => exact h
    | cons t ps =>
    cases ps with
    | nil => exact h
    | cons w ps =>
    rw [read_353, read_353]
    by_cases hk : casemap cm t = k
    · rw [if_pos ⟨hk, hd⟩, if_pos ⟨hk, hv⟩]
      exact VR0_members h d.nick v.nick
        (fun a x => (a x || (nameWords w).any fun y => casemap cm (bareName syms y) = x))
        (fun a b hab x hx => by
          simp only [Bool.or_eq_true] at hx ⊢
          exact hx.imp (hab x) (fun h => h))
    · rw [if_neg (fun h => hk h.1), if_neg (fun h => hk h.1)]; exact h
  by_cases hc : c = b!"366"
  · rw [h366 hc] at hd; cases hd
  · have : ∀ v, readMsg cm syms k v ⟨s, c, p :: ps⟩ = v := by
      intro v
      unfold readMsg
      dsimp only
      repeat' split
      all_goals first | rfl | contradiction
    rw [this, this]; exact h

/-- What is assumed about the history beyond the order of the server: `login` that no client logs in
while the list of members is on its way, `stay` that the bouncer does not reconnect while clients are
there and attaches only channels it is in. -/
structure Calm where
  login : Prop
  stay : Prop

/-- `d` is what a direct client knows, `v` what a client of the bouncer knows. -/
def VR (a : Calm) (d v : View) : Prop :=
  VR0 a.login d v ∧ (a.stay → v.joined = true → d.joined = true)

theorem VR_of_not {a : Calm} {d v : View} (h : d.joined = false) (hv : a.stay → v.joined = false) :
    VR a d v :=
  ⟨VR0_of_not h, fun hs h' => by rw [hv hs] at h'; cases h'⟩

theorem VR_members {a : Calm} {d v : View} (h : VR a d v) (n n' : Str)
    (f : (Str → Bool) → Str → Bool)
    (hf : ∀ a b : Str → Bool, (∀ x, a x = true → b x = true) → ∀ x, f a x = true → f b x = true) :
    VR a { d with nick := n, members := f d.members } { v with nick := n', members := f v.members } :=
  ⟨VR0_members h.1 n n' f hf, h.2⟩

/-- Both clients read the same message. -/
theorem VR_read {a : Calm} {d v : View} (h : VR a d v) (hn : d.nick = v.nick) (m : VMsg)
    (h1 : m.command ≠ b!"001") (h366 : m.command = b!"366" → d.joined = false) :
    VR a (readMsg cm syms k d m) (readMsg cm syms k v m) := by
  refine ⟨VR0_read h.1 hn m h1 h366, fun hs => ?_⟩
  have h := h.2 hs
  obtain ⟨s, c, ps⟩ := m
  by_cases hcj : c = b!"JOIN"
  · subst hcj
    cases ps with
    | nil => exact h
    | cons n r =>
      rw [read_join, read_join, hn]
      split
      · split
        · exact fun _ => rfl
        · intro hv
          have hv' : v.joined = true := by split at hv <;> first | assumption | exact hv
          rw [if_pos (h hv')]; exact h hv'
      · exact h
  by_cases hcp : c = b!"PART"
  · subst hcp
    cases ps with
    | nil => exact h
    | cons n r =>
      rw [read_part, read_part, hn]
      split
      · split
        · exact fun h => h
        · exact h
      · exact h
  by_cases hck : c = b!"KICK"
  · subst hck
    cases ps with
    | nil => exact h
    | cons n r =>
    cases r with
    | nil => exact h
    | cons u r =>
      rw [read_kick, read_kick, hn]
      split
      · split
        · exact fun h => h
        · exact h
      · exact h
  rw [read_joined _ _ _ _ hcj hcp hck, read_joined _ _ _ _ hcj hcp hck]
  exact h

end Verif.Proof
