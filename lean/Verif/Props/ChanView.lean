import Verif.Proof.ChanView3

/-! C75: a client of the bouncer knows about its nick and the attached channels what a client
connected directly would know. -/

namespace Verif.Props
open Verif.Model Verif.Spec Verif.Proof

/-- C75: for every history of the connection, of the clients and of attaching and detaching, a client
knows of a channel that is not detached the same as a client connected directly in place of the
bouncer: it is in the channel if the direct client is, and once the direct client has the list of
members they agree on the members and on the topic. They always agree on the own nick.

Assumed: the server is orderly, no client logs in while the list of members is on its way
(`C75_login_violated`) and no client sends PART for the channel while it is detached
(`C75_part_violated`). Left out: the ranks of members, the other commands. The converse, that a client
is not in more channels, is `C75_stay_partial`. -/
theorem C75_view_partial (cm : CaseMapping) (avail : List Model.Membership) (hsp : 32 ∉ avail.map (·.pfx))
    (want : Str) (records : GoMap Str (Str × Bool)) (hrec : ∀ e ∈ records, e.1 = casemap cm e.2.1)
    (k : Str) (ops : List VcOp) (st : VcState)
    (hrun : vcRun cm avail (vcInit want records) ops = some st)
    (hserver : OrderlyRun cm (avail.map (·.pfx)) k ops)
    (hleave : EachStep cm avail k (vcInit want records) ops (NoPartDetached cm k))
    (hlogin : EachStep cm avail k (vcInit want records) ops (NoLoginHalfway k))
    (d : View) (hd : directView cm (avail.map (·.pfx)) k ops = some d) (hdet : ¬ SavedDetached k st) :
    ∀ c ∈ st.clients, c.noNames = false →
      (viewOf cm (avail.map (·.pfx)) k c.out).nick = d.nick ∧
      (d.joined = true → (viewOf cm (avail.map (·.pfx)) k c.out).joined = true ∧
        (d.listed = true → (viewOf cm (avail.map (·.pfx)) k c.out).listed = true ∧
          (viewOf cm (avail.map (·.pfx)) k c.out).topic = d.topic ∧
          (viewOf cm (avail.map (·.pfx)) k c.out).members = d.members)) := by
  intro c hc hnn
  have h := run_inv (a := ⟨True, False⟩) hsp (init_inv want records hrec) ops st
    (stepOk_of hserver hleave (fun _ => hlogin) (fun h => nomatch h)) hrun
  rw [hd] at h
  obtain ⟨h1, h2⟩ := h
  simp only [Option.getD_some] at h2
  obtain ⟨hn, hv⟩ := h2.cli c hc
  obtain ⟨hn', hv⟩ := hv h1
  have hdk : detK k st = false := by
    rw [← detK_saved] at hdet; simpa using hdet
  refine ⟨hn.trans hn'.symm, fun hj => ?_⟩
  obtain ⟨hv1, hv2⟩ := (hv hdk hnn).1 hj
  refine ⟨hv1 trivial, fun hl => ?_⟩
  have := hv2 (hv1 trivial)
  rw [if_pos hl] at this
  exact ⟨this.1, this.2.1, funext this.2.2⟩

/-- C75: if moreover the bouncer does not reconnect while clients are there and attaches only channels
it is in, then a client thinks it is in a channel exactly if the direct client is. -/
theorem C75_stay_partial (cm : CaseMapping) (avail : List Model.Membership) (hsp : 32 ∉ avail.map (·.pfx))
    (want : Str) (records : GoMap Str (Str × Bool)) (hrec : ∀ e ∈ records, e.1 = casemap cm e.2.1)
    (k : Str) (ops : List VcOp) (st : VcState)
    (hrun : vcRun cm avail (vcInit want records) ops = some st)
    (hserver : OrderlyRun cm (avail.map (·.pfx)) k ops)
    (hleave : EachStep cm avail k (vcInit want records) ops (NoPartDetached cm k))
    (hlogin : EachStep cm avail k (vcInit want records) ops (NoLoginHalfway k))
    (hsteady : EachStep cm avail k (vcInit want records) ops (Steady cm k))
    (d : View) (hd : directView cm (avail.map (·.pfx)) k ops = some d) (hdet : ¬ SavedDetached k st) :
    ∀ c ∈ st.clients, c.noNames = false →
      (viewOf cm (avail.map (·.pfx)) k c.out).joined = d.joined := by
  intro c hc hnn
  have h := run_inv (a := ⟨True, True⟩) hsp (init_inv want records hrec) ops st
    (stepOk_of hserver hleave (fun _ => hlogin) (fun _ => hsteady)) hrun
  rw [hd] at h
  obtain ⟨h1, h2⟩ := h
  simp only [Option.getD_some] at h2
  obtain ⟨-, hv⟩ := (h2.cli c hc).2 h1
  have hdk : detK k st = false := by
    rw [← detK_saved] at hdet; simpa using hdet
  obtain ⟨hv1, hv2⟩ := hv hdk hnn
  cases hj : d.joined
  · exact VR_joined ⟨hv1, hv2⟩ hj trivial
  · exact (hv1 hj).1 trivial

theorem casemap_no_A (cm : CaseMapping) (name : Str) : casemap cm name ≠ [65] := by
  intro h
  have : 65 ∈ casemap cm name := by rw [h]; simp
  cases cm <;> simp only [casemap, List.mem_map] at this <;> obtain ⟨c, -, hc⟩ := this
  · unfold casemapASCIIByte at hc; split at hc <;> omega
  · unfold casemapRFC1459Byte at hc; repeat' split at hc
    all_goals omega
  · unfold casemapRFC1459StrictByte at hc; repeat' split at hc
    all_goals omega

theorem read_nick_indep (cm : CaseMapping) (syms k k' : Str) (v v' : View) (m : VMsg)
    (h : v.nick = v'.nick) : (readMsg cm syms k v m).nick = (readMsg cm syms k' v' m).nick := by
  by_cases h1 : m.command = b!"001"
  · obtain ⟨s, c, ps⟩ := m
    dsimp only at h1
    subst h1
    cases ps with
    | nil => exact h
    | cons p ps => rw [read_welcome, read_welcome]
  by_cases h2 : m.command = b!"NICK"
  · obtain ⟨s, c, ps⟩ := m
    dsimp only at h2
    subst h2
    cases ps with
    | nil => exact h
    | cons p ps =>
      rw [read_nick, read_nick]
      dsimp only
      rw [h]
  rw [read_nick_field h1 h2, read_nick_field h1 h2, h]

theorem view_nick_indep (cm : CaseMapping) (syms k k' : Str) (l : List VMsg) :
    (viewOf cm syms k l).nick = (viewOf cm syms k' l).nick := by
  induction l using snocInd with
  | nil => rfl
  | snoc l m ih => rw [viewOf_snoc, viewOf_snoc]; exact read_nick_indep _ _ _ _ _ _ _ ih

theorem direct_nick_indep (cm : CaseMapping) (syms k k' : Str) (ops : List VcOp) :
    (directView cm syms k ops).map (·.nick) = (directView cm syms k' ops).map (·.nick) := by
  induction ops using snocInd with
  | nil => rfl
  | snoc ops op ih =>
    simp only [directView, List.foldl_append, List.foldl_cons, List.foldl_nil]
    change Option.map _ (directStep cm syms k (directView cm syms k ops) op) =
      Option.map _ (directStep cm syms k' (directView cm syms k' ops) op)
    revert ih
    cases directView cm syms k ops <;> cases directView cm syms k' ops <;> intro ih
    · cases op <;> rfl
    · cases ih
    · cases ih
    · simp only [Option.map_some, Option.some.injEq] at ih
      cases op with
      | server m dc =>
        simp only [directStep, Option.map_some, Option.some.injEq]
        exact read_nick_indep _ _ _ _ _ _ _ ih
      | connected n => rfl
      | disconnected => rfl
      | _ => simp only [directStep, Option.map_some, ih]

/-- C75: whatever happens, every client knows as its own nick the one the bouncer uses for it, and
that is the nick of the connection while there is one. -/
theorem C75_nick (cm : CaseMapping) (avail : List Model.Membership) (hsp : 32 ∉ avail.map (·.pfx))
    (want : Str) (records : GoMap Str (Str × Bool)) (hrec : ∀ e ∈ records, e.1 = casemap cm e.2.1)
    (k : Str) (ops : List VcOp) (st : VcState)
    (hrun : vcRun cm avail (vcInit want records) ops = some st)
    (hserver : OrderlyRun cm (avail.map (·.pfx)) k ops) :
    ∀ c ∈ st.clients, (viewOf cm (avail.map (·.pfx)) k c.out).nick = c.nick ∧
      ∀ d, directView cm (avail.map (·.pfx)) k ops = some d → c.nick = d.nick := by
  intro c hc
  have hserver' : OrderlyRun cm (avail.map (·.pfx)) [65] ops := by
    intro pre m dc post v he hv
    have hi := direct_nick_indep cm (avail.map (·.pfx)) k [65] pre
    rw [hv] at hi
    cases hv' : directView cm (avail.map (·.pfx)) k pre with
    | none => rw [hv'] at hi; cases hi
    | some v' =>
      rw [hv'] at hi
      simp only [Option.map_some, Option.some.injEq] at hi
      have ho := hserver pre m dc post v' he hv'
      refine ⟨ho.welcome, ho.nick, ho.join, ho.part, fun h => by rw [← hi]; exact ho.quit h,
        fun h => ?_, fun h => ?_, fun h => ?_⟩
      · obtain ⟨me, name, text, rest, hp, -⟩ := ho.notopic h
        exact ⟨me, name, text, rest, hp, fun h => absurd h (casemap_no_A cm name)⟩
      · obtain ⟨me, name, text, rest, hp, -⟩ := ho.topic h
        exact ⟨me, name, text, rest, hp, fun h => absurd h (casemap_no_A cm name)⟩
      · obtain ⟨me, status, name, words, rest, hp, hst, -, hw⟩ := ho.names h
        exact ⟨me, status, name, words, rest, hp, hst, fun h => absurd h (casemap_no_A cm name), hw⟩
  have h := run_inv (a := ⟨False, False⟩) (k := [65]) hsp (init_inv want records hrec) ops st
    (stepOk_of hserver' (fun _ _ _ _ _ _ name _ hk => absurd hk (casemap_no_A cm name))
      (fun h => nomatch h) (fun h => nomatch h)) hrun
  obtain ⟨h1, h2⟩ := h
  obtain ⟨hn, hv⟩ := h2.cli c hc
  refine ⟨(view_nick_indep _ _ _ _ _).trans hn, fun d hd => ?_⟩
  have hi := direct_nick_indep cm (avail.map (·.pfx)) k [65] ops
  rw [hd] at hi
  cases hv' : directView cm (avail.map (·.pfx)) [65] ops with
  | none => rw [hv'] at hi; cases hi
  | some d' =>
    rw [hv'] at hi h1 hv
    simp only [Option.map_some, Option.some.injEq] at hi
    exact ((hv h1).1.symm.trans hi.symm)

/-! ### A history that meets the hypotheses -/

/-- A check of `Orderly`, for the examples. -/
def orderlyB (cm : CaseMapping) (syms k : Str) (v : View) (m : VMsg) : Bool :=
  let nickB := fun (n : Str) => decide (n ≠ [] ∧ 32 ∉ n) && !(n.take 1).any (· ∈ syms)
  if m.command = b!"001" then false
  else if m.command = b!"NICK" then
    match m.params with
    | n :: _ => nickB n
    | _ => false
  else if m.command = b!"JOIN" then
    match m.params with
    | n :: _ => nickB m.source && decide (44 ∉ n)
    | _ => false
  else if m.command = b!"PART" then
    match m.params with
    | n :: _ => decide (44 ∉ n)
    | _ => false
  else if m.command = b!"QUIT" then decide (casemap cm m.source ≠ casemap cm v.nick)
  else if m.command = b!"331" then
    match m.params with
    | _ :: name :: _ :: _ => decide (casemap cm name = k → v.joined = true → v.listed = false ∧ v.topic = [])
    | _ => false
  else if m.command = b!"332" then
    match m.params with
    | _ :: name :: t :: _ => decide (casemap cm name = k → v.joined = true → v.listed = false ∧ t ≠ [])
    | _ => false
  else if m.command = b!"353" then
    match m.params with
    | _ :: [status] :: name :: words :: _ =>
      decide (status = 61 ∨ status = 64 ∨ status = 42) &&
      decide (casemap cm name = k → v.joined = true → v.listed = false) &&
      (nameWords words).all fun w =>
        (w.takeWhile (· ∈ syms)).isSublist syms && nickB (w.dropWhile (· ∈ syms))
    | _ => false
  else true

theorem nickB_ok {syms n : Str}
    (h : (decide (n ≠ [] ∧ 32 ∉ n) && !(n.take 1).any (· ∈ syms)) = true) : NickOk syms n := by
  cases n with
  | nil => simp at h
  | cons a n => simp at h; simpa [NickOk] using h

theorem orderlyB_ok {cm : CaseMapping} {syms k : Str} {v : View} {m : VMsg}
    (h : orderlyB cm syms k v m = true) : Orderly cm syms k v m := by
  obtain ⟨s, c, ps⟩ := m
  unfold orderlyB at h
  dsimp only at h
  by_cases h1 : c = b!"001"
  · rw [if_pos h1] at h; cases h
  rw [if_neg h1] at h
  refine ⟨h1, fun e => ?_, fun e => ?_, fun e => ?_, fun e => ?_, fun e => ?_, fun e => ?_, fun e => ?_⟩
  all_goals
    dsimp only at e
    subst e
  · rw [if_pos rfl] at h
    cases ps with
    | nil => cases h
    | cons n rest => exact ⟨n, rest, rfl, nickB_ok h⟩
  · rw [if_neg (by decide), if_pos rfl] at h
    cases ps with
    | nil => cases h
    | cons n rest =>
      rw [Bool.and_eq_true] at h
      exact ⟨nickB_ok h.1, n, rest, rfl, of_decide_eq_true h.2⟩
  · rw [if_neg (by decide), if_neg (by decide), if_pos rfl] at h
    cases ps with
    | nil => cases h
    | cons n rest => exact ⟨n, rest, rfl, of_decide_eq_true h⟩
  · rw [if_neg (by decide), if_neg (by decide), if_neg (by decide), if_pos rfl] at h
    exact of_decide_eq_true h
  · rw [if_neg (by decide), if_neg (by decide), if_neg (by decide), if_neg (by decide), if_pos rfl] at h
    match ps, h with
    | me :: name :: t :: rest, h => exact ⟨me, name, t, rest, rfl, of_decide_eq_true h⟩
  · rw [if_neg (by decide), if_neg (by decide), if_neg (by decide), if_neg (by decide),
      if_neg (by decide), if_pos rfl] at h
    match ps, h with
    | me :: name :: t :: rest, h => exact ⟨me, name, t, rest, rfl, of_decide_eq_true h⟩
  · rw [if_neg (by decide), if_neg (by decide), if_neg (by decide), if_neg (by decide),
      if_neg (by decide), if_neg (by decide), if_pos rfl] at h
    match ps, h with
    | me :: [status] :: name :: words :: rest, h =>
      rw [Bool.and_eq_true, Bool.and_eq_true, List.all_eq_true] at h
      refine ⟨me, status, name, words, rest, rfl, of_decide_eq_true h.1.1, of_decide_eq_true h.1.2,
        fun w hw => ?_⟩
      have := h.2 w hw
      rw [Bool.and_eq_true] at this
      exact ⟨_, _, (List.takeWhile_append_dropWhile ..).symm, List.isSublist_iff_sublist.mp this.1,
        nickB_ok this.2⟩

/-- A check of a predicate at every event, for the examples. -/
def eachB (cm : CaseMapping) (avail : List Model.Membership) (k : Str)
    (P : VcState → Option View → VcOp → Bool) : VcState → Option View → List VcOp → Bool
  | _, _, [] => true
  | st, d, op :: ops => P st d op &&
    match vcStep cm avail st op with
    | some st' => eachB cm avail k P st' (directStep cm (avail.map (·.pfx)) k d op) ops
    | none => false

theorem eachB_ok {cm : CaseMapping} {avail : List Model.Membership} {k : Str}
    {P : VcState → Option View → VcOp → Bool} (pre : List VcOp) (op : VcOp) (post : List VcOp) :
    ∀ {st : VcState} {d : Option View}, eachB cm avail k P st d (pre ++ op :: post) = true →
      ∃ st', vcRun cm avail st pre = some st' ∧
        P st' (pre.foldl (directStep cm (avail.map (·.pfx)) k) d) op = true := by
  induction pre with
  | nil =>
    intro st d h
    simp only [List.nil_append, eachB, Bool.and_eq_true] at h
    exact ⟨st, rfl, h.1⟩
  | cons o pre ih =>
    intro st d h
    simp only [List.cons_append, eachB, Bool.and_eq_true] at h
    obtain ⟨-, h⟩ := h
    cases hs : vcStep cm avail st o with
    | none => rw [hs] at h; cases h
    | some st1 =>
      rw [hs] at h
      obtain ⟨st', h1, h2⟩ := ih h
      exact ⟨st', by simp only [vcRun, hs]; exact h1, h2⟩

/-- The checks of the hypotheses, for the examples. -/
def stepB (cm : CaseMapping) (syms k : Str) (d : Option View) : VcOp → Bool
  | .server m _ => match d with
    | some v => orderlyB cm syms k v m
    | none => true
  | _ => true

def savedB (k : Str) (st : VcState) : Bool :=
  match st.records.get k with
  | some (_, true) => true
  | _ => false

theorem savedB_ok {k : Str} {st : VcState} : savedB k st = true ↔ SavedDetached k st := by
  unfold savedB SavedDetached
  cases h : st.records.get k with
  | none => simp
  | some r => obtain ⟨n, b⟩ := r; cases b <;> simp

def leaveB (cm : CaseMapping) (k : Str) (st : VcState) (_ : Option View) : VcOp → Bool
  | .cPart name => decide (casemap cm name = k → savedB k st = false)
  | .forget name => decide (casemap cm name = k → savedB k st = false)
  | _ => true

def halfB (k : Str) (st : VcState) (d : Option View) : VcOp → Bool
  | .login .. => match d with
    | some v => decide (v.joined = true → savedB k st = false → v.listed = true)
    | none => true
  | _ => true

def steadyB (cm : CaseMapping) (k : Str) (st : VcState) (d : Option View) : VcOp → Bool
  | .connected _ => st.clients.isEmpty
  | .attach name => decide (casemap cm name = k → savedB k st = true → d.any (·.joined) = true)
  | .cJoin name => decide (casemap cm name = k → savedB k st = true → d.any (·.joined) = true)
  | _ => true

theorem orderly_of_check {cm : CaseMapping} {avail : List Model.Membership} {k : Str} {init : VcState}
    {ops : List VcOp}
    (h : eachB cm avail k (fun _ => stepB cm (avail.map (·.pfx)) k) init none ops = true) :
    OrderlyRun cm (avail.map (·.pfx)) k ops := by
  intro pre m dc post v he hv
  subst he
  obtain ⟨st', -, h2⟩ := eachB_ok pre _ post h
  change stepB cm (avail.map (·.pfx)) k (directView cm (avail.map (·.pfx)) k pre) _ = true at h2
  rw [hv] at h2
  exact orderlyB_ok h2

theorem leave_of_check {cm : CaseMapping} {avail : List Model.Membership} {k : Str} {init : VcState}
    {ops : List VcOp} (h : eachB cm avail k (leaveB cm k) init none ops = true) :
    EachStep cm avail k init ops (NoPartDetached cm k) := by
  intro pre op post st he hr name ho hk
  subst he
  obtain ⟨st', h1, h2⟩ := eachB_ok pre _ post h
  obtain rfl : st = st' := Option.some.inj (hr.symm.trans h1)
  intro hs
  rcases ho with rfl | rfl
  all_goals
    have := of_decide_eq_true h2 hk
    rw [savedB_ok.mpr hs] at this
    cases this

theorem half_of_check {cm : CaseMapping} {avail : List Model.Membership} {k : Str} {init : VcState}
    {ops : List VcOp} (h : eachB cm avail k (halfB k) init none ops = true) :
    EachStep cm avail k init ops (NoLoginHalfway k) := by
  intro pre op post st he hr n e m nn v ho hd hj hs
  subst he ho
  obtain ⟨st', h1, h2⟩ := eachB_ok pre _ post h
  obtain rfl : st = st' := Option.some.inj (hr.symm.trans h1)
  change halfB k st (directView cm (avail.map (·.pfx)) k pre) _ = true at h2
  rw [hd] at h2
  refine of_decide_eq_true h2 hj ?_
  cases hb : savedB k st
  · rfl
  · exact absurd (savedB_ok.mp hb) hs

theorem steady_of_check {cm : CaseMapping} {avail : List Model.Membership} {k : Str} {init : VcState}
    {ops : List VcOp} (h : eachB cm avail k (steadyB cm k) init none ops = true) :
    EachStep cm avail k init ops (Steady cm k) := by
  intro pre op post st he hr
  subst he
  obtain ⟨st', h1, h2⟩ := eachB_ok pre _ post h
  obtain rfl : st = st' := Option.some.inj (hr.symm.trans h1)
  have aux : ∀ {d : Option View}, d.any (·.joined) = true → ∃ v, d = some v ∧ v.joined = true := by
    intro d h
    cases d with
    | none => cases h
    | some v => exact ⟨v, rfl, h⟩
  refine ⟨fun n ho => ?_, fun name ho hk hs => ?_⟩
  · subst ho; exact List.isEmpty_iff.mp h2
  · rcases ho with ho | ho <;> subst ho <;> exact aux (of_decide_eq_true h2 hk (savedB_ok.mpr hs))

/-- The knowledge of the direct client, for the examples. -/
def viewAt (ops : List VcOp) : View :=
  (directView .ascii [64, 43] b!"#c" ops).getD (View.fresh [])

theorem viewAt_eq {ops : List VcOp} (h : (directView .ascii [64, 43] b!"#c" ops).isSome = true) :
    directView .ascii [64, 43] b!"#c" ops = some (viewAt ops) := by
  unfold viewAt
  cases h' : directView .ascii [64, 43] b!"#c" ops with
  | none => rw [h'] at h; cases h
  | some a => rfl

theorem no_saved {st : VcState} (h : st.records = []) (k : Str) : ¬ SavedDetached k st := by
  rintro ⟨name, hk⟩
  rw [h] at hk
  cases hk

/-- `@` and `+`. -/
def vcAvail : List Model.Membership := [⟨111, 64⟩, ⟨118, 43⟩]

/-- The bouncer joins `#C` with `bob` and `eve` in it. -/
def vcJoined : List VcOp :=
  [.server ⟨b!"me", b!"JOIN", [b!"#C"]⟩ 0,
   .server ⟨b!"irc", b!"332", [b!"me", b!"#C", b!"Hello"]⟩ 0,
   .server ⟨b!"irc", b!"353", [b!"me", b!"=", b!"#C", b!"@me +bob eve"]⟩ 0,
   .server ⟨b!"irc", b!"366", [b!"me", b!"#C", b!"End"]⟩ 0]

/-- Two clients log in, one before and one after the JOIN. The channel is saved, detached and attached
again while people come and go. -/
def vcHistory : List VcOp :=
  [.connected b!"me", .login 1 true false false, .cJoin b!"#c"] ++ vcJoined ++
  [.login 2 false true false,
   .server ⟨b!"BOB", b!"NICK", [b!"rob"]⟩ 0,
   .server ⟨b!"me", b!"KICK", [b!"#C", b!"EVE"]⟩ 0,
   .detach b!"#c",
   .server ⟨b!"carol", b!"JOIN", [b!"#C", b!"acct", b!"Carol"]⟩ 0,
   .login 3 false false false,
   .attach b!"#C",
   .server ⟨b!"dave", b!"JOIN", [b!"#C", b!"acct", b!"Dave"]⟩ 0,
   .server ⟨b!"me", b!"NICK", [b!"moi"]⟩ 0,
   .server ⟨b!"carol", b!"QUIT", []⟩ 0]

def vcEnd : VcState := (vcRun .ascii vcAvail (vcInit b!"me" []) vcHistory).getD (vcInit [] [])
def vcDirect : View := viewAt vcHistory

-- All the hypotheses of `C75_view_partial`, `C75_stay_partial` and `C75_nick` hold of this history, and
-- at its end the bouncer is in the channel and has three clients.
example : 32 ∉ vcAvail.map (·.pfx) ∧ vcRun .ascii vcAvail (vcInit b!"me" []) vcHistory = some vcEnd ∧
    OrderlyRun .ascii (vcAvail.map (·.pfx)) b!"#c" vcHistory ∧
    EachStep .ascii vcAvail b!"#c" (vcInit b!"me" []) vcHistory (NoPartDetached .ascii b!"#c") ∧
    EachStep .ascii vcAvail b!"#c" (vcInit b!"me" []) vcHistory (NoLoginHalfway b!"#c") ∧
    EachStep .ascii vcAvail b!"#c" (vcInit b!"me" []) vcHistory (Steady .ascii b!"#c") ∧
    ¬ SavedDetached b!"#c" vcEnd ∧ vcEnd.clients.length = 3 ∧
    (vcEnd.clients.all fun c => !c.noNames) = true ∧
    directView .ascii (vcAvail.map (·.pfx)) b!"#c" vcHistory = some vcDirect ∧
    vcDirect.joined = true ∧ vcDirect.listed = true ∧ vcDirect.nick = b!"moi" ∧
    vcDirect.topic = b!"Hello" ∧ vcDirect.members b!"rob" = true ∧ vcDirect.members b!"dave" = true ∧
    vcDirect.members b!"carol" = false ∧ vcDirect.members b!"eve" = false := by
  refine ⟨by decide, by decide +kernel, orderly_of_check (init := vcInit b!"me" []) (by decide +kernel),
    leave_of_check (by decide +kernel), half_of_check (by decide +kernel),
    steady_of_check (by decide +kernel), ?_, by decide +kernel, by decide +kernel,
    viewAt_eq (by decide +kernel),
    by decide +kernel, by decide +kernel, by decide +kernel, by decide +kernel, by decide +kernel,
    by decide +kernel, by decide +kernel, by decide +kernel⟩
  rw [← savedB_ok]
  decide +kernel

/-! ### Where the bouncer and a direct connection differ -/

/-- C75 does not hold of a client that logs in after the JOIN of the bouncer and before the end of the
list of members: the burst leaves the channel out (downstream.go:1583-1585), and the 366 makes the
bouncer send the topic and the members, but no JOIN (upstream.go:1516-1522). -/
theorem C75_login_violated : ∃ (ops : List VcOp) (st : VcState) (d : View) (c : VcClient),
    vcRun .ascii vcAvail (vcInit b!"me" []) ops = some st ∧
    OrderlyRun .ascii (vcAvail.map (·.pfx)) b!"#c" ops ∧
    EachStep .ascii vcAvail b!"#c" (vcInit b!"me" []) ops (NoPartDetached .ascii b!"#c") ∧
    EachStep .ascii vcAvail b!"#c" (vcInit b!"me" []) ops (Steady .ascii b!"#c") ∧
    directView .ascii (vcAvail.map (·.pfx)) b!"#c" ops = some d ∧ c ∈ st.clients ∧
    d.joined = true ∧ d.listed = true ∧ (∀ k, ¬ SavedDetached k st) ∧
    (viewOf .ascii (vcAvail.map (·.pfx)) b!"#c" c.out).joined = false := by
  let ops : List VcOp := .connected b!"me" :: vcJoined.take 1 ++ .login 1 false false false :: vcJoined.drop 1
  let st := (vcRun .ascii vcAvail (vcInit b!"me" []) ops).getD (vcInit [] [])
  refine ⟨ops, st, viewAt ops,
    st.clients.headD ⟨0, [], false, false, false, []⟩, by decide +kernel,
    orderly_of_check (init := vcInit b!"me" []) (by decide +kernel), leave_of_check (by decide +kernel),
    steady_of_check (by decide +kernel), viewAt_eq (by decide +kernel), by decide +kernel, by decide +kernel, by decide +kernel,
    no_saved (st := st) (by decide +kernel), by decide +kernel⟩

/-- C75 does not hold across a reconnection: nothing tells the clients that the channels are gone
(user.go:895-931 sends neither PART nor KICK), so a client stays in a channel that the bouncer is no
longer in, for good if the JOIN of the bouncer is refused. -/
theorem C75_reconnect_violated : ∃ (ops : List VcOp) (st : VcState) (d : View) (c : VcClient),
    vcRun .ascii vcAvail (vcInit b!"me" []) ops = some st ∧
    OrderlyRun .ascii (vcAvail.map (·.pfx)) b!"#c" ops ∧
    EachStep .ascii vcAvail b!"#c" (vcInit b!"me" []) ops (NoPartDetached .ascii b!"#c") ∧
    EachStep .ascii vcAvail b!"#c" (vcInit b!"me" []) ops (NoLoginHalfway b!"#c") ∧
    directView .ascii (vcAvail.map (·.pfx)) b!"#c" ops = some d ∧ c ∈ st.clients ∧
    d.joined = false ∧
    (viewOf .ascii (vcAvail.map (·.pfx)) b!"#c" c.out).joined = true := by
  let ops : List VcOp :=
    .connected b!"me" :: vcJoined ++ [.login 1 false false false, .disconnected, .connected b!"me"]
  let st := (vcRun .ascii vcAvail (vcInit b!"me" []) ops).getD (vcInit [] [])
  exact ⟨ops, st, viewAt ops,
    st.clients.headD ⟨0, [], false, false, false, []⟩, by decide +kernel,
    orderly_of_check (init := vcInit b!"me" []) (by decide +kernel), leave_of_check (by decide +kernel),
    half_of_check (by decide +kernel), viewAt_eq (by decide +kernel), by decide +kernel, by decide +kernel, by decide +kernel⟩

/-- C75 does not hold after a PART of a detached channel: it deletes the saved channel, and until the
server confirms the PART the channel counts as attached although the clients are not in it. -/
theorem C75_part_violated : ∃ (ops : List VcOp) (st : VcState) (d : View) (c : VcClient),
    vcRun .ascii vcAvail (vcInit b!"me" []) ops = some st ∧
    OrderlyRun .ascii (vcAvail.map (·.pfx)) b!"#c" ops ∧
    EachStep .ascii vcAvail b!"#c" (vcInit b!"me" []) ops (NoLoginHalfway b!"#c") ∧
    EachStep .ascii vcAvail b!"#c" (vcInit b!"me" []) ops (Steady .ascii b!"#c") ∧
    directView .ascii (vcAvail.map (·.pfx)) b!"#c" ops = some d ∧ c ∈ st.clients ∧
    d.joined = true ∧ d.listed = true ∧ (∀ k, ¬ SavedDetached k st) ∧
    (viewOf .ascii (vcAvail.map (·.pfx)) b!"#c" c.out).joined = false := by
  let ops : List VcOp := [.connected b!"me", .cJoin b!"#c"] ++ vcJoined ++
    [.login 1 false false false, .cDetach b!"#c", .cPart b!"#c"]
  let st := (vcRun .ascii vcAvail (vcInit b!"me" []) ops).getD (vcInit [] [])
  refine ⟨ops, st, viewAt ops,
    st.clients.headD ⟨0, [], false, false, false, []⟩, by decide +kernel,
    orderly_of_check (init := vcInit b!"me" []) (by decide +kernel), half_of_check (by decide +kernel),
    steady_of_check (by decide +kernel), viewAt_eq (by decide +kernel), by decide +kernel, by decide +kernel, by decide +kernel,
    no_saved (st := st) (by decide +kernel), by decide +kernel⟩

/-- C75 does not hold of a saved detached channel that the bouncer could not join: a JOIN from a client
attaches it and tells every client that it joined (user.go:354-387). -/
theorem C75_attach_violated : ∃ (ops : List VcOp) (st : VcState) (d : View) (c : VcClient),
    vcRun .ascii vcAvail (vcInit b!"me" [(b!"#c", b!"#c", true)]) ops = some st ∧
    OrderlyRun .ascii (vcAvail.map (·.pfx)) b!"#c" ops ∧
    directView .ascii (vcAvail.map (·.pfx)) b!"#c" ops = some d ∧ c ∈ st.clients ∧
    d.joined = false ∧
    (viewOf .ascii (vcAvail.map (·.pfx)) b!"#c" c.out).joined = true := by
  let ops : List VcOp := [.connected b!"me", .login 1 false false false, .cJoin b!"#c"]
  let st := (vcRun .ascii vcAvail (vcInit b!"me" [(b!"#c", b!"#c", true)]) ops).getD (vcInit [] [])
  exact ⟨ops, st, viewAt ops,
    st.clients.headD ⟨0, [], false, false, false, []⟩, by decide +kernel,
    orderly_of_check (init := vcInit b!"me" [(b!"#c", b!"#c", true)]) (by decide +kernel),
    viewAt_eq (by decide +kernel), by decide +kernel, by decide +kernel, by decide +kernel⟩

/-- A detach that also saves the channel (downstream.go:2003-2015) is not announced: the clients stay
in a channel whose messages no longer reach them. -/
theorem C75_detach_violated : ∃ (ops : List VcOp) (st : VcState) (c : VcClient),
    vcRun .ascii vcAvail (vcInit b!"me" []) ops = some st ∧
    OrderlyRun .ascii (vcAvail.map (·.pfx)) b!"#c" ops ∧ c ∈ st.clients ∧
    SavedDetached b!"#c" st ∧ (viewOf .ascii (vcAvail.map (·.pfx)) b!"#c" c.out).joined = true := by
  let ops : List VcOp :=
    .connected b!"me" :: vcJoined ++ [.login 1 false false false, .cDetach b!"#c"]
  let st := (vcRun .ascii vcAvail (vcInit b!"me" []) ops).getD (vcInit [] [])
  exact ⟨ops, st, st.clients.headD ⟨0, [], false, false, false, []⟩, by decide +kernel,
    orderly_of_check (init := vcInit b!"me" []) (by decide +kernel), by decide +kernel,
    savedB_ok.mp (by decide +kernel), by decide +kernel⟩

/-- Without a connection a NICK from one client renames that client alone (downstream.go:1836-1841):
the clients of the network then have different nicks. -/
theorem C75_offline_nick_violated : ∃ (ops : List VcOp) (st : VcState) (c c' : VcClient),
    vcRun .ascii vcAvail (vcInit b!"me" []) ops = some st ∧ c ∈ st.clients ∧ c' ∈ st.clients ∧
    (viewOf .ascii (vcAvail.map (·.pfx)) b!"#c" c.out).nick = st.wantNick ∧
    (viewOf .ascii (vcAvail.map (·.pfx)) b!"#c" c'.out).nick ≠ st.wantNick := by
  let ops : List VcOp := [.login 1 false false false, .login 2 false false false, .cNick 1 b!"moi"]
  let st := (vcRun .ascii vcAvail (vcInit b!"me" []) ops).getD (vcInit [] [])
  exact ⟨ops, st, st.clients.headD ⟨0, [], false, false, false, []⟩,
    (st.clients.drop 1).headD ⟨0, [], false, false, false, []⟩, by decide +kernel, by decide +kernel,
    by decide +kernel, by decide +kernel, by decide +kernel⟩

end Verif.Props
