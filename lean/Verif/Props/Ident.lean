import Verif.Proof.Ident

/-! C86 — a client knows who it is on the network. -/

namespace Verif.Props
open Verif.Model Verif.Spec Verif.Proof

private theorem identity_snoc (cm : CaseMapping) (ops : List IdOp) (op : IdOp) :
    identity cm (ops ++ [op]) = whoStep cm (identity cm ops) op := by
  simp [identity, List.foldl_append]

private theorem idRun_snoc (cm : CaseMapping) (st : IdState) (ops : List IdOp) (op : IdOp) :
    idRun cm st (ops ++ [op]) = idStep cm (idRun cm st ops) op := by
  simp [idRun, List.foldl_append]

private theorem id_server_says (cm : CaseMapping) (uc : IdConn) (m : VMsg) :
    serverSays cm ⟨uc.nick, uc.username, uc.hostname, uc.realname, uc.account⟩ m =
      ⟨(idServer cm uc m).1.nick, (idServer cm uc m).1.username, (idServer cm uc m).1.hostname,
        (idServer cm uc m).1.realname, (idServer cm uc m).1.account⟩ := by
  obtain ⟨s, cmd, ps⟩ := m
  unfold idServer serverSays
  dsimp only
  by_cases h1 : cmd = b!"NICK"
  · subst h1
    match ps with
    | [] => rfl
    | n :: _ => by_cases ho : casemap cm s = casemap cm uc.nick <;> simp [ho]
  by_cases h2 : cmd = b!"SETNAME"
  · subst h2
    match ps with
    | [] => rfl
    | n :: _ => by_cases ho : casemap cm s = casemap cm uc.nick <;> simp [ho]
  by_cases h3 : cmd = b!"CHGHOST"
  · subst h3
    match ps with
    | [] => rfl
    | [_] => rfl
    | n :: _ :: _ => by_cases ho : casemap cm s = casemap cm uc.nick <;> simp [ho]
  by_cases h4 : cmd = b!"900"
  · subst h4
    match ps with
    | [] => rfl
    | [_] => rfl
    | [_, _] => rfl
    | _ :: p :: _ :: _ => simp [id_parsePrefix]
  by_cases h5 : cmd = b!"901"
  · subst h5
    match ps with
    | [] => rfl
    | [_] => rfl
    | _ :: p :: _ => simp [id_parsePrefix]
  by_cases h6 : cmd = b!"396"
  · subst h6
    match ps with
    | [] => rfl
    | [_] => rfl
    | _ :: r :: _ =>
      obtain ⟨e1, e2, e3⟩ := id_cut_at 64 r
      rcases hc : cut 64 r with ⟨u, h⟩
      rw [hc] at e1 e2 e3
      cases h with
      | none =>
        have : 64 ∉ r := fun hm => by simpa using e3.mpr hm
        simp [this, hc]
      | some h =>
        have : 64 ∈ r := e3.mp rfl
        dsimp only at e1 e2
        simp only [Option.getD_some] at e2
        simp [this, hc, beforeAt, hostPart, e1, e2]
  simp only [h1, h2, h3, h4, h5, h6, if_false]
  (repeat' split) <;> first
    | rfl
    | exact absurd rfl h1
    | exact absurd rfl h2
    | exact absurd rfl h3
    | exact absurd rfl h4
    | exact absurd rfl h5
    | exact absurd rfl h6

private theorem id_identity (cm : CaseMapping) (n r d : Str) (ops : List IdOp) :
    ∀ uc, (idRun cm (idStart n r d) ops).conn = some uc →
      identity cm ops = some ⟨uc.nick, uc.username, uc.hostname, uc.realname, uc.account⟩ := by
  induction ops using snocInd with
  | nil => intro uc h; cases h
  | snoc ops op ih =>
    intro uc h
    rw [idRun_snoc] at h
    rw [identity_snoc]
    generalize idRun cm (idStart n r d) ops = st at h ih
    cases op with
    | connected u =>
      obtain rfl : u = uc := by simpa [idStep] using h
      rfl
    | disconnected => simp [idStep, idDisconnected] at h
    | server m =>
      unfold idStep at h
      dsimp only at h
      split at h
      · rename_i hc
        rw [hc] at h
        cases h
      · rename_i uc' hc
        obtain rfl := Option.some.inj h
        simp only [whoStep, ih uc' hc, Option.map_some, id_server_says]
    | upCaps a b c =>
      unfold idStep at h
      dsimp only at h
      split at h
      · rename_i hc
        rw [hc] at h
        cases h
      · rename_i uc' hc
        obtain rfl := Option.some.inj h
        exact ih uc' hc
    | login a b c e f =>
      unfold idStep at h
      dsimp only at h
      split at h <;> exact ih uc h
    | logout a => exact ih uc h
    | capReq a b c => exact ih uc h
    | setNick a => exact ih uc h
    | setReal a b => exact ih uc h
    | cNick a =>
      unfold idStep at h
      dsimp only at h
      split at h <;> exact ih uc h
    | cSetname a b =>
      unfold idStep at h
      dsimp only at h
      split at h
      · exact ih uc h
      · unfold idSetname at h
        split at h
        · exact ih uc h
        · dsimp only at h
          split at h
          · exact ih uc h
          · split at h
            · exact ih uc h
            · simp [idDisconnected] at h

private theorem id_nodup (cm : CaseMapping) (n r d : Str) (ops : List IdOp) :
    ((idRun cm (idStart n r d) ops).clients.map (fun c => c.num)).Nodup := by
  induction ops using snocInd with
  | nil => simp [idRun, idStart]
  | snoc ops op ih =>
    rw [idRun_snoc]
    generalize idRun cm (idStart n r d) ops = st at ih
    have hmap : ∀ f : IdClient → IdClient, (∀ c, (f c).num = c.num) →
        ((st.clients.map f).map (fun c => c.num)).Nodup := by
      intro f hf
      rw [List.map_map]
      rw [show st.clients.map ((fun c => c.num) ∘ f) = st.clients.map (fun c => c.num) from
        List.map_congr_left (fun c _ => hf c)]
      exact ih
    cases op with
    | connected u =>
      refine hmap _ (fun c => ?_)
      unfold idConnected
      rw [id_num_account, id_num_real, id_num_host, id_num_nick]
      rfl
    | disconnected => exact hmap _ (fun _ => rfl)
    | server m =>
      unfold idStep
      dsimp only
      split
      · exact ih
      · exact hmap _ (fun c => id_num_server cm _ _ m c)
    | upCaps a b c =>
      unfold idStep
      dsimp only
      split
      · exact ih
      · exact hmap _ (fun _ => rfl)
    | login a b c e f =>
      unfold idStep
      dsimp only
      split
      · exact ih
      · rename_i hn
        dsimp only
        rw [List.map_append, List.nodup_append]
        refine ⟨ih, by simp, ?_⟩
        intro x hx y hy e
        obtain ⟨c, hc, rfl⟩ := List.mem_map.mp hx
        rw [List.map_singleton, List.mem_singleton, id_login_num] at hy
        subst hy
        exact hn (List.any_eq_true.mpr ⟨c, hc, decide_eq_true e⟩)
    | logout a => exact ih.sublist (List.filter_sublist.map _)
    | capReq a b c =>
      refine hmap _ (fun c => ?_)
      split
      · unfold idCapReq
        split <;> (try split) <;> rfl
      · rfl
    | setNick a => exact ih
    | setReal a b => exact ih
    | cNick a =>
      unfold idStep
      dsimp only
      split
      · exact ih
      · exact hmap _ (fun c => id_num_nick _ _ c)
    | cSetname a b =>
      unfold idStep
      dsimp only
      split
      · exact ih
      · unfold idSetname
        split
        · refine hmap _ (fun c => ?_)
          split
          · exact id_num_send _ _
          · rfl
        · dsimp only
          split
          · exact ih
          · split
            · exact ih
            · exact hmap _ (fun _ => rfl)

/-- The bouncer after a client logged in between two parts of a history. -/
private theorem id_main (cm : CaseMapping) (n r d : Str) (ops1 : List IdOp) (num : Nat) (host : Str)
    (ch sn sa : Bool) (hnew : ∀ c ∈ (idRun cm (idStart n r d) ops1).clients, c.num ≠ num) (ops2 : List IdOp)
    (hlo : IdOp.logout num ∉ ops2) :
    IdInv cm num host (NotEnabledLater num .chghost ops2) (NotEnabledLater num .setname ops2)
      (NotEnabledLater num .sasl ops2)
      (idRun cm (idStart n r d) (ops1 ++ IdOp.login num host ch sn sa :: ops2)) := by
  induction ops2 using snocInd with
  | nil =>
    rw [idRun_snoc]
    have hnd := id_nodup cm n r d (ops1 ++ [IdOp.login num host ch sn sa])
    rw [idRun_snoc] at hnd
    generalize idRun cm (idStart n r d) ops1 = st at hnew hnd
    have hany : st.clients.any (fun c => decide (c.num = num)) = false := by
      rw [List.any_eq_false]
      intro c hc
      simpa using hnew c hc
    refine ⟨hnd, ?_, ?_⟩
    · refine ⟨idLogin st num host ch sn sa, ?_, id_login_num ..⟩
      simp [idStep, hany]
    · intro c hc e
      have hc' : c ∈ st.clients ++ [idLogin st num host ch sn sa] := by simpa [idStep, hany] using hc
      rcases List.mem_append.mp hc' with hc' | hc'
      · exact absurd e (hnew c hc')
      · obtain rfl := List.mem_singleton.mp hc'
        refine ⟨told_login cm _ st num host ch sn sa, fun uc hu => ?_⟩
        have hu' : st.conn = some uc := by simpa [idStep, hany] using hu
        exact sync_login _ _ st uc hu' num host ch sn sa
  | snoc ops2 op ih =>
    have hlo' : IdOp.logout num ∉ ops2 := fun hm => hlo (List.mem_append_left _ hm)
    have hop : op ≠ .logout num := fun e => hlo (by rw [e]; simp)
    have ih := ih hlo'
    have e : ops1 ++ IdOp.login num host ch sn sa :: (ops2 ++ [op])
        = (ops1 ++ IdOp.login num host ch sn sa :: ops2) ++ [op] := by simp
    rw [e, idRun_snoc]
    generalize idRun cm (idStart n r d) (ops1 ++ IdOp.login num host ch sn sa :: ops2) = st at ih
    have hsub : ∀ cap, NotEnabledLater num cap (ops2 ++ [op]) → NotEnabledLater num cap ops2 :=
      fun cap h hm => h (List.mem_append_left _ hm)
    have hne : ∀ cap, NotEnabledLater num cap (ops2 ++ [op]) → op ≠ .capReq num cap true :=
      fun cap h e => h (by rw [e]; simp)
    have ih' : IdInv cm num host (NotEnabledLater num .chghost (ops2 ++ [op]))
        (NotEnabledLater num .setname (ops2 ++ [op])) (NotEnabledLater num .sasl (ops2 ++ [op])) st := by
      refine ⟨ih.nodup, ih.there, fun c hc e => ?_⟩
      have hg := ih.good c hc e
      refine ⟨⟨hg.1.nick, hg.1.host, hg.1.real, hg.1.account, fun u => hg.1.user (hsub _ u)⟩, fun uc hu => ?_⟩
      have hs := hg.2 uc hu
      exact ⟨hs.nick, hs.host, hs.user, fun x => hs.real (hsub _ x), fun x => hs.account (hsub _ x)⟩
    exact idInv_step op ih' hop (hne _) (hne _) (hne _)

/-- A client that has logged in is there until it leaves, and while the network is connected it knows its
nick and, if the server told one, its host. This holds whatever capabilities it has and changes. -/
theorem C86_host (cm : CaseMapping) (n r d : Str) (ops1 ops2 : List IdOp) (num : Nat) (home : Str)
    (ch sn sa : Bool) (hnew : ∀ c ∈ (idRun cm (idStart n r d) ops1).clients, c.num ≠ num)
    (hlo : IdOp.logout num ∉ ops2) :
    let ops := ops1 ++ IdOp.login num home ch sn sa :: ops2
    let st := idRun cm (idStart n r d) ops
    ∃ c ∈ st.clients, c.num = num ∧ (st.conn.isSome = true → ∃ me, identity cm ops = some me ∧
      (believes cm home c.out).nick = me.nick ∧ (me.host ≠ [] → (believes cm home c.out).host = me.host)) := by
  intro ops st
  have hi := id_main cm n r d ops1 num home ch sn sa hnew ops2 hlo
  obtain ⟨c, hc, e⟩ := hi.there
  refine ⟨c, hc, e, fun hs => ?_⟩
  obtain ⟨uc, huc⟩ := Option.isSome_iff_exists.mp hs
  have hg := hi.good c hc e
  have hs := hg.2 uc huc
  refine ⟨_, id_identity cm n r d ops uc huc, hg.1.nick.trans hs.nick, fun hh => hg.1.host.trans (hs.host hh)⟩

/-- A client with the chghost capability, which it did not enable after logging in, also knows its user
name. -/
theorem C86_user_partial (cm : CaseMapping) (n r d : Str) (ops1 ops2 : List IdOp) (num : Nat) (home : Str)
    (ch sn sa : Bool) (hnew : ∀ c ∈ (idRun cm (idStart n r d) ops1).clients, c.num ≠ num)
    (hlo : IdOp.logout num ∉ ops2) (hcap : NotEnabledLater num .chghost ops2) :
    let ops := ops1 ++ IdOp.login num home ch sn sa :: ops2
    let st := idRun cm (idStart n r d) ops
    ∃ c ∈ st.clients, c.num = num ∧ (st.conn.isSome = true → c.chghost = true → ∃ me, identity cm ops = some me ∧
      (me.host ≠ [] → (believes cm home c.out).user = me.user)) := by
  intro ops st
  have hi := id_main cm n r d ops1 num home ch sn sa hnew ops2 hlo
  obtain ⟨c, hc, e⟩ := hi.there
  refine ⟨c, hc, e, fun hs hch => ?_⟩
  obtain ⟨uc, huc⟩ := Option.isSome_iff_exists.mp hs
  have hg := hi.good c hc e
  exact ⟨_, id_identity cm n r d ops uc huc, fun hh => (hg.1.user hcap hch).trans ((hg.2 uc huc).user hh)⟩

/-- A client with the setname capability, which it did not enable after logging in, knows its real
name. -/
theorem C86_realname_partial (cm : CaseMapping) (n r d : Str) (ops1 ops2 : List IdOp) (num : Nat) (home : Str)
    (ch sn sa : Bool) (hnew : ∀ c ∈ (idRun cm (idStart n r d) ops1).clients, c.num ≠ num)
    (hlo : IdOp.logout num ∉ ops2) (hcap : NotEnabledLater num .setname ops2) :
    let ops := ops1 ++ IdOp.login num home ch sn sa :: ops2
    let st := idRun cm (idStart n r d) ops
    ∃ c ∈ st.clients, c.num = num ∧ (st.conn.isSome = true → c.setname = true → ∃ me, identity cm ops = some me ∧
      (believes cm home c.out).real = me.real) := by
  intro ops st
  have hi := id_main cm n r d ops1 num home ch sn sa hnew ops2 hlo
  obtain ⟨c, hc, e⟩ := hi.there
  refine ⟨c, hc, e, fun hs hch => ?_⟩
  obtain ⟨uc, huc⟩ := Option.isSome_iff_exists.mp hs
  have hg := hi.good c hc e
  exact ⟨_, id_identity cm n r d ops uc huc, hg.1.real.trans ((hg.2 uc huc).real hcap hch)⟩

/-- A client with the sasl capability, which it did not enable after logging in, knows the account it is
logged in to. -/
theorem C86_account_partial (cm : CaseMapping) (n r d : Str) (ops1 ops2 : List IdOp) (num : Nat) (home : Str)
    (ch sn sa : Bool) (hnew : ∀ c ∈ (idRun cm (idStart n r d) ops1).clients, c.num ≠ num)
    (hlo : IdOp.logout num ∉ ops2) (hcap : NotEnabledLater num .sasl ops2) :
    let ops := ops1 ++ IdOp.login num home ch sn sa :: ops2
    let st := idRun cm (idStart n r d) ops
    ∃ c ∈ st.clients, c.num = num ∧ (st.conn.isSome = true → c.sasl = true → ∃ me, identity cm ops = some me ∧
      (believes cm home c.out).account = me.account) := by
  intro ops st
  have hi := id_main cm n r d ops1 num home ch sn sa hnew ops2 hlo
  obtain ⟨c, hc, e⟩ := hi.there
  refine ⟨c, hc, e, fun hs hch => ?_⟩
  obtain ⟨uc, huc⟩ := Option.isSome_iff_exists.mp hs
  have hg := hi.good c hc e
  exact ⟨_, id_identity cm n r d ops uc huc, hg.1.account.trans ((hg.2 uc huc).account hcap hch)⟩

/-- While the network is connected, SETNAME of a client that has the setname capability and did not enable it
after logging in is answered at once if the real name is already that one; otherwise the server is asked to change it, or the
setting is changed (an empty real name stands for the default) and the bouncer disconnects in order to connect with it. -/
theorem C86_setname_partial (cm : CaseMapping) (n r d : Str) (ops1 ops2 : List IdOp) (num : Nat) (home : Str)
    (ch sn sa : Bool) (hnew : ∀ c ∈ (idRun cm (idStart n r d) ops1).clients, c.num ≠ num)
    (hlo : IdOp.logout num ∉ ops2) (hcap : NotEnabledLater num .setname ops2) (real : Str) :
    let ops := ops1 ++ IdOp.login num home ch sn sa :: ops2
    let st := idRun cm (idStart n r d) ops
    let st' := idRun cm (idStart n r d) (ops ++ [.cSetname num real])
    ∃ c ∈ st.clients, c.num = num ∧ (st.conn.isSome = true → c.setname = true →
      ((identity cm ops).map (·.real) = some real ∧
        { c with out := c.out ++ [⟨c.nick, b!"SETNAME", [real]⟩] } ∈ st'.clients) ∨
      (st'.wantReal = (if real = [] then st.dfltReal else real) ∧ st'.conn = none) ∨
      (st'.conn = st.conn ∧ st'.asked = st.asked ++ [real])) := by
  intro ops st st'
  have hi := id_main cm n r d ops1 num home ch sn sa hnew ops2 hlo
  obtain ⟨c, hc, e⟩ := hi.there
  refine ⟨c, hc, e, fun hs hch => ?_⟩
  obtain ⟨uc, huc⟩ := Option.isSome_iff_exists.mp hs
  have hg := hi.good c hc e
  have hst' : st' = idStep cm st (.cSetname num real) := idRun_snoc _ _ _ _
  have hfind : st.clients.find? (fun c => decide (c.num = num)) = some c := by
    cases hf : st.clients.find? (fun c => decide (c.num = num)) with
    | none =>
      have := List.find?_eq_none.mp hf c hc
      simp [e] at this
    | some c' =>
      have h1 := List.mem_of_find?_eq_some hf
      have h2 : c'.num = num := by simpa using List.find?_some hf
      rw [eq_of_nodup_map hi.nodup h1 hc (h2.trans e.symm)]
  rw [hst']
  unfold idStep
  simp only [hfind]
  unfold idSetname
  by_cases hr : c.realname = real
  · left
    rw [if_pos hr]
    refine ⟨?_, ?_⟩
    · rw [id_identity cm n r d ops uc huc]
      simp only [Option.map_some]
      rw [← (hg.2 uc huc).real hcap hch, hr]
    · refine List.mem_map.mpr ⟨c, hc, ?_⟩
      simp [idSend, hch]
  · right
    rw [if_neg hr]
    dsimp only
    rw [huc]
    dsimp only
    split
    · exact Or.inr ⟨rfl, rfl⟩
    · exact Or.inl ⟨rfl, rfl⟩

/-! ## Cases that meet the hypotheses -/

private def idConn1 : IdConn := ⟨b!"al", b!"~al", b!"h1", b!"Al", b!"acc", true, true, true⟩
private def idLog1 : IdOp := .login 1 b!"::1" true true true

/-- After a login, the server logs the user in to another account with another host, and somebody else changes
real name. -/
example :
    let ops := [IdOp.connected idConn1] ++ idLog1 ::
      [.server ⟨b!"s", b!"900", [b!"al", b!"al!u2@h2", b!"acc2", b!"x"]⟩,
       .server ⟨b!"bob", b!"SETNAME", [b!"Bob"]⟩,
       .server ⟨b!"s", b!"396", [b!"al", b!"h3", b!"x"]⟩]
    let st := idRun .rfc1459 (idStart b!"al" b!"Al" b!"Al") ops
    st.conn.isSome = true ∧ identity .rfc1459 ops = some ⟨b!"al", b!"u2", b!"h3", b!"Al", b!"acc2"⟩ ∧
    st.clients.map (fun c => (c.chghost, c.setname, c.sasl, believes .rfc1459 b!"::1" c.out)) =
      [(true, true, true, ⟨b!"al", b!"u2", b!"h3", b!"Al", b!"acc2"⟩)] ∧
    IdOp.capReq 1 .sasl true ∉ ops := by decide +kernel

/-! ## What does not hold -/

/-- A client that enables sasl again when the network is back (it was disabled when the connection was lost) is not told
that it is logged in to another account, or to none, now. -/
theorem C86_account_violated : ∃ (ops : List IdOp) (c : IdClient) (me : Ident),
    let st := idRun .rfc1459 (idStart b!"al" b!"Al" b!"Al") ([IdOp.connected idConn1] ++ idLog1 :: ops)
    st.clients = [c] ∧ st.conn.isSome = true ∧ c.sasl = true ∧
    identity .rfc1459 ([IdOp.connected idConn1] ++ idLog1 :: ops) = some me ∧
    me.account = [] ∧ (believes .rfc1459 b!"::1" c.out).account = b!"acc" := by
  refine ⟨[.disconnected, .connected { idConn1 with account := [] }, .capReq 1 .sasl true], ?_, ?_, ?_⟩
  · exact (idRun .rfc1459 (idStart b!"al" b!"Al" b!"Al") ([IdOp.connected idConn1] ++ idLog1 ::
      [.disconnected, .connected { idConn1 with account := [] }, .capReq 1 .sasl true])).clients.head!
  · exact ⟨b!"al", b!"~al", b!"h1", b!"Al", []⟩
  · decide +kernel

/-- A client that enables setname after having logged in is not told its real name. -/
theorem C86_realname_violated : ∃ (ops : List IdOp) (c : IdClient) (me : Ident),
    let st := idRun .rfc1459 (idStart b!"al" b!"Al" b!"Al") ops
    st.clients = [c] ∧ st.conn.isSome = true ∧ c.setname = true ∧ identity .rfc1459 ops = some me ∧
    me.real = b!"Al" ∧ (believes .rfc1459 b!"::1" c.out).real = [] := by
  refine ⟨[.connected idConn1, .login 1 b!"::1" true false true, .capReq 1 .setname true],
    (idRun .rfc1459 (idStart b!"al" b!"Al" b!"Al")
      [.connected idConn1, .login 1 b!"::1" true false true, .capReq 1 .setname true]).clients.head!,
    ⟨b!"al", b!"~al", b!"h1", b!"Al", b!"acc"⟩, ?_⟩
  decide +kernel

/-- While the network is not connected, a client that asks for the real name it was told last is answered that it
has it, although the setting is another one and stays so. -/
theorem C86_setname_violated : ∃ (ops : List IdOp) (c : IdClient),
    let st := idRun .rfc1459 (idStart b!"al" b!"Al" b!"Al") (ops ++ [.cSetname 1 b!"Al"])
    st.clients = [c] ∧ c.out.getLast? = some ⟨b!"al", b!"SETNAME", [b!"Al"]⟩ ∧ st.wantReal = b!"Bob" := by
  refine ⟨[.connected idConn1, idLog1, .disconnected, .setReal b!"Bob" b!"Bob"],
    (idRun .rfc1459 (idStart b!"al" b!"Al" b!"Al")
      ([.connected idConn1, idLog1, .disconnected, .setReal b!"Bob" b!"Bob"] ++ [.cSetname 1 b!"Al"])).clients.head!, ?_⟩
  decide +kernel

end Verif.Props
