import Verif.Spec.Ident
import Verif.Proof.Util

/-! Lemmas about the identity of a client on its network. -/

namespace Verif.Proof
open Verif.Model Verif.Spec

theorem id_cut_at (x : Byte) (s : Str) :
    (cut x s).1 = s.takeWhile (· ≠ x) ∧ (cut x s).2.getD [] = (s.dropWhile (· ≠ x)).drop 1 ∧
      ((cut x s).2.isSome = true ↔ x ∈ s) := by
  induction s with
  | nil => simp [cut]
  | cons c s ih =>
    unfold cut
    by_cases h : c = x
    · simp [h]
    · have h' : x ≠ c := fun e => h e.symm
      simp only [h, if_false, List.takeWhile_cons, List.dropWhile_cons, List.mem_cons, h', false_or]
      simp only [ne_eq, h, not_false_eq_true, decide_true, if_true]
      exact ⟨by rw [ih.1], ih.2.1, ih.2.2⟩

theorem id_parsePrefix (s : Str) : idParsePrefix s = (userPart s, hostPart s) := by
  unfold idParsePrefix userPart hostPart beforeAt
  dsimp only
  rw [(id_cut_at 64 s).1, (id_cut_at 33 _).2.1, (id_cut_at 64 s).2.1]

/-- The messages of a client tell it what the bouncer noted. -/
structure IdTold (cm : CaseMapping) (home : Str) (U : Prop) (c : IdClient) : Prop where
  nick : (believes cm home c.out).nick = c.nick
  host : (believes cm home c.out).host = c.hostname
  real : (believes cm home c.out).real = c.realname
  account : (believes cm home c.out).account = c.account
  user : U → c.chghost = true → (believes cm home c.out).user = c.username

theorem believes_snoc (cm : CaseMapping) (host : Str) (out : List VMsg) (m : VMsg) :
    believes cm host (out ++ [m]) = clientReads cm (believes cm host out) m := by
  simp [believes, List.foldl_append]

theorem told_caps {cm host U c} (conn : Option IdConn) (h : IdTold cm host U c) :
    IdTold cm host U (idSupportedCaps conn c) := by
  refine ⟨h.nick, h.host, h.real, h.account, fun hu hc => h.user hu ?_⟩
  simp only [idSupportedCaps, Bool.and_eq_true] at hc
  exact hc.1

theorem told_nick {cm host U c} (conn : Option IdConn) (want : Str) (h : IdTold cm host U c) :
    IdTold cm host U (idUpdateNick conn want c) := by
  unfold idUpdateNick
  dsimp only
  generalize hn : idNickOf conn want = n
  split
  · exact h
  · have hs : idSend c ⟨c.nick, b!"NICK", [n]⟩ = { c with out := c.out ++ [⟨c.nick, b!"NICK", [n]⟩] } := by
      simp [idSend]
    rw [hs]
    refine ⟨?_, ?_, ?_, ?_, ?_⟩ <;> simp only [believes_snoc, clientReads, h.nick, if_true]
    · exact h.host
    · exact h.real
    · exact h.account
    · exact h.user

theorem told_host {cm host U c} (conn : Option IdConn) (h : IdTold cm host U c) :
    IdTold cm host U (idUpdateHost conn c) := by
  unfold idUpdateHost
  split
  · exact h
  · rename_i uc
    split
    · exact h
    · split
      · exact h
      · dsimp only
        by_cases hc : c.chghost = true
        · have hs : idSend c ⟨c.nick, b!"CHGHOST", [uc.username, uc.hostname]⟩
              = { c with out := c.out ++ [⟨c.nick, b!"CHGHOST", [uc.username, uc.hostname]⟩] } := by
            simp [idSend, hc]
          rw [if_pos hc, hs]
          refine ⟨?_, ?_, ?_, ?_, ?_⟩ <;> simp only [believes_snoc, clientReads, h.nick, if_true]
          · exact h.real
          · exact h.account
          · exact fun _ _ => trivial
        · rw [if_neg hc]
          by_cases hh : uc.hostname ≠ c.hostname
          · have hs : idSend c ⟨c.nick, b!"396", [c.nick, uc.hostname, b!"is now your visible host"]⟩
                = { c with out := c.out ++
                    [⟨c.nick, b!"396", [c.nick, uc.hostname, b!"is now your visible host"]⟩] } := by
              simp [idSend]
            rw [if_pos hh, hs]
            refine ⟨?_, ?_, ?_, ?_, ?_⟩ <;> simp only [believes_snoc, clientReads]
            · exact h.nick
            · exact h.real
            · exact h.account
            · exact fun _ hc' => absurd hc' hc
          · rw [if_neg hh]
            have hh' : uc.hostname = c.hostname := Classical.not_not.mp hh
            exact ⟨h.nick, by rw [hh']; exact h.host, h.real, h.account, fun _ hc' => absurd hc' hc⟩

theorem told_real {cm host U c} (conn : Option IdConn) (want : Str) (h : IdTold cm host U c) :
    IdTold cm host U (idUpdateRealname conn want c) := by
  unfold idUpdateRealname
  dsimp only
  generalize hn : idRealOf conn want = r
  split
  · exact h
  · rename_i hc
    have hc' : c.setname = true := by simpa using hc
    split
    · have hs : idSend c ⟨c.nick, b!"SETNAME", [r]⟩ = { c with out := c.out ++ [⟨c.nick, b!"SETNAME", [r]⟩] } := by
        simp [idSend, hc']
      rw [hs]
      refine ⟨?_, ?_, ?_, ?_, ?_⟩ <;> simp only [believes_snoc, clientReads, h.nick, if_true]
      · exact h.host
      · exact h.account
      · exact h.user
    · exact h

theorem told_account {cm host U c} (conn : Option IdConn) (h : IdTold cm host U c) :
    IdTold cm host U (idUpdateAccount conn c) := by
  unfold idUpdateAccount
  split
  · exact h
  · rename_i uc
    split
    · exact h
    · dsimp only
      by_cases ha : uc.account ≠ []
      · rw [if_pos ha]
        have hs : ∀ x y, idSend c ⟨[], b!"900", [c.nick, x, uc.account, y]⟩
            = { c with out := c.out ++ [⟨[], b!"900", [c.nick, x, uc.account, y]⟩] } := by
          intro x y; simp [idSend]
        rw [hs]
        refine ⟨?_, ?_, ?_, ?_, ?_⟩ <;> simp only [believes_snoc, clientReads]
        · exact h.nick
        · exact h.host
        · exact h.real
        · exact h.user
      · rw [if_neg ha]
        have ha' : uc.account = [] := Classical.not_not.mp ha
        have hs : ∀ x y, idSend c ⟨[], b!"901", [c.nick, x, y]⟩
            = { c with out := c.out ++ [⟨[], b!"901", [c.nick, x, y]⟩] } := by
          intro x y; simp [idSend]
        rw [hs, ha']
        refine ⟨?_, ?_, ?_, ?_, ?_⟩ <;> simp only [believes_snoc, clientReads]
        · exact h.nick
        · exact h.host
        · exact h.real
        · exact h.user

/-- A message about somebody else. -/
theorem told_forward {cm host U c} (m : VMsg) (h : IdTold cm host U c)
    (hm : m.command = b!"NICK" ∨ m.command = b!"SETNAME" ∨ m.command = b!"CHGHOST")
    (hn : casemap cm m.source ≠ casemap cm c.nick) : IdTold cm host U (idSend c m) := by
  have hb : clientReads cm (believes cm host c.out) m = believes cm host c.out := by
    obtain ⟨s, cmd, ps⟩ := m
    have hn' : casemap cm s ≠ casemap cm (believes cm host c.out).nick := by rw [h.nick]; exact hn
    unfold clientReads
    dsimp only at hm hn' ⊢
    rcases hm with rfl | rfl | rfl
    · match ps with
      | [] => rfl
      | n :: _ => simp only [hn', if_false]
    · match ps with
      | [] => rfl
      | n :: _ => simp only [hn', if_false]
    · match ps with
      | [] => rfl
      | [_] => rfl
      | n :: _ :: _ => simp only [hn', if_false]
  unfold idSend
  split
  · exact h
  · split
    · exact h
    · refine ⟨?_, ?_, ?_, ?_, ?_⟩ <;> simp only [believes_snoc, hb]
      · exact h.nick
      · exact h.host
      · exact h.real
      · exact h.account
      · exact h.user

/-- What the bouncer noted is what the connection says. -/
structure IdSync (R A : Prop) (uc : IdConn) (c : IdClient) : Prop where
  nick : c.nick = uc.nick
  host : uc.hostname ≠ [] → c.hostname = uc.hostname
  user : uc.hostname ≠ [] → c.username = uc.username
  real : R → c.setname = true → c.realname = uc.realname
  account : A → c.sasl = true → c.account = uc.account

/-- Fields that sending a message leaves alone. -/
theorem id_send_same (c : IdClient) (m : VMsg) : ∃ o, idSend c m = { c with out := o } := by
  unfold idSend
  split
  · exact ⟨c.out, rfl⟩
  · split
    · exact ⟨c.out, rfl⟩
    · exact ⟨_, rfl⟩

theorem id_nick_same (conn : Option IdConn) (want : Str) (c : IdClient) : ∃ o n,
    idUpdateNick conn want c = { c with nick := n, out := o } ∧
      n = idNickOf conn want := by
  unfold idUpdateNick
  dsimp only
  split
  · rename_i h
    exact ⟨c.out, c.nick, rfl, h.symm⟩
  · obtain ⟨o, ho⟩ := id_send_same c ⟨c.nick, b!"NICK", [idNickOf conn want]⟩
    rw [ho]
    exact ⟨o, _, rfl, rfl⟩

theorem id_host_same (uc : IdConn) (c : IdClient) : ∃ o u h,
    idUpdateHost (some uc) c = { c with username := u, hostname := h, out := o } ∧
      (uc.hostname ≠ [] → u = uc.username ∧ h = uc.hostname) := by
  unfold idUpdateHost
  dsimp only
  split
  · rename_i h
    exact ⟨c.out, c.username, c.hostname, rfl, fun hh => absurd h hh⟩
  · split
    · rename_i h
      exact ⟨c.out, c.username, c.hostname, rfl, fun _ => ⟨h.2.symm, h.1.symm⟩⟩
    · split
      · obtain ⟨o, ho⟩ := id_send_same c ⟨c.nick, b!"CHGHOST", [uc.username, uc.hostname]⟩
        rw [ho]
        exact ⟨o, _, _, rfl, fun _ => ⟨rfl, rfl⟩⟩
      · split
        · obtain ⟨o, ho⟩ := id_send_same c ⟨c.nick, b!"396", [c.nick, uc.hostname, b!"is now your visible host"]⟩
          rw [ho]
          exact ⟨o, _, _, rfl, fun _ => ⟨rfl, rfl⟩⟩
        · exact ⟨c.out, _, _, rfl, fun _ => ⟨rfl, rfl⟩⟩

theorem id_real_same (uc : IdConn) (want : Str) (c : IdClient) : ∃ o r,
    idUpdateRealname (some uc) want c = { c with realname := r, out := o } ∧
      (c.setname = true → r = uc.realname) := by
  unfold idUpdateRealname
  dsimp only [idRealOf]
  split
  · rename_i h
    exact ⟨c.out, c.realname, rfl, fun hh => by rw [h] at hh; exact absurd hh (by decide)⟩
  · split
    · obtain ⟨o, ho⟩ := id_send_same c ⟨c.nick, b!"SETNAME", [uc.realname]⟩
      rw [ho]
      exact ⟨o, _, rfl, fun _ => rfl⟩
    · rename_i h
      exact ⟨c.out, c.realname, rfl, fun _ => (Classical.not_not.mp h).symm⟩

theorem id_account_same (uc : IdConn) (c : IdClient) : ∃ o a,
    idUpdateAccount (some uc) c = { c with account := a, out := o } ∧ (c.sasl = true → a = uc.account) := by
  unfold idUpdateAccount
  dsimp only
  split
  · rename_i h
    refine ⟨c.out, c.account, rfl, fun hh => ?_⟩
    rcases h with h | h
    · exact h
    · rw [h] at hh; exact absurd hh (by decide)
  · split
    · obtain ⟨o, ho⟩ := id_send_same c
        ⟨[], b!"900", [c.nick, idPrefix c, uc.account, b!"You are logged in as " ++ uc.account]⟩
      rw [ho]
      exact ⟨o, _, rfl, fun _ => rfl⟩
    · obtain ⟨o, ho⟩ := id_send_same c ⟨[], b!"901", [c.nick, idPrefix c, b!"You are logged out"]⟩
      rw [ho]
      exact ⟨o, _, rfl, fun _ => rfl⟩

theorem sync_connected (R A : Prop) (uc : IdConn) (wn wr : Str) (c : IdClient) :
    IdSync R A uc (idConnected (some uc) wn wr c) := by
  unfold idConnected
  generalize idSupportedCaps (some uc) c = c
  obtain ⟨o1, n, h1, hn⟩ := id_nick_same (some uc) wn c
  rw [h1]
  obtain ⟨o2, u, h, h2, hh⟩ := id_host_same uc { c with nick := n, out := o1 }
  rw [h2]
  obtain ⟨o3, r, h3, hr⟩ := id_real_same uc wr
    { c with nick := n, username := u, hostname := h, out := o2 }
  dsimp only at h3 hr ⊢
  rw [h3]
  obtain ⟨o4, a, h4, ha⟩ := id_account_same uc
    { c with nick := n, username := u, hostname := h, realname := r, out := o3 }
  dsimp only at h4 ha ⊢
  rw [h4]
  exact ⟨hn, fun x => (hh x).2, fun x => (hh x).1, fun _ => hr, fun _ => ha⟩

theorem told_connected {cm host U c} (conn : Option IdConn) (wn wr : Str) (h : IdTold cm host U c) :
    IdTold cm host U (idConnected conn wn wr c) :=
  told_account _ (told_real _ _ (told_host _ (told_nick _ _ (told_caps _ h))))

theorem id_login_num (st : IdState) (num : Nat) (host : Str) (a b d : Bool) :
    (idLogin st num host a b d).num = num := by
  unfold idLogin
  dsimp only
  generalize hn : idNickOf st.conn st.wantNick = n
  obtain ⟨o, ho⟩ := id_send_same { idSupportedCaps st.conn ⟨num, a, b, d, b!"*", b!"~u", host, [], [], []⟩ with nick := n } ⟨[], b!"001", [n]⟩
  rw [ho]
  cases hc : st.conn with
  | none =>
    unfold idUpdateAccount idUpdateRealname idUpdateHost idSupportedCaps
    dsimp only
    split
    · rfl
    · split
      · obtain ⟨o', ho'⟩ := id_send_same _ _
        rw [ho']
      · rfl
  | some uc =>
    obtain ⟨o2, u, h, h2, _⟩ := id_host_same uc { idSupportedCaps (some uc) ⟨num, a, b, d, b!"*", b!"~u", host, [], [], []⟩ with nick := n, out := o }
    dsimp only at h2 ⊢
    rw [h2]
    obtain ⟨o3, r, h3, _⟩ := id_real_same uc st.wantReal _
    rw [h3]
    obtain ⟨o4, a', h4, _⟩ := id_account_same uc _
    rw [h4]
    rfl

theorem told_login (cm : CaseMapping) (U : Prop) (st : IdState) (num : Nat) (host : Str) (a b d : Bool) :
    IdTold cm host U (idLogin st num host a b d) := by
  unfold idLogin
  dsimp only
  generalize hn : idNickOf st.conn st.wantNick = n
  refine told_account _ (told_real _ _ (told_host _ ?_))
  have hs : ∀ c : IdClient, idSend c ⟨[], b!"001", [n]⟩ = { c with out := c.out ++ [⟨[], b!"001", [n]⟩] } := by
    intro c; simp [idSend]
  rw [hs]
  refine ⟨?_, ?_, ?_, ?_, ?_⟩ <;> simp [believes, clientReads, idSupportedCaps]

theorem sync_login (R A : Prop) (st : IdState) (uc : IdConn) (hc : st.conn = some uc) (num : Nat) (host : Str)
    (a b d : Bool) : IdSync R A uc (idLogin st num host a b d) := by
  unfold idLogin
  rw [hc]
  dsimp only [idNickOf]
  generalize hk : idSupportedCaps (some uc) ⟨num, a, b, d, b!"*", b!"~u", host, [], [], []⟩ = c
  obtain ⟨o, ho⟩ := id_send_same { c with nick := uc.nick } ⟨[], b!"001", [uc.nick]⟩
  rw [ho]
  obtain ⟨o2, u, h, h2, hh⟩ := id_host_same uc { c with nick := uc.nick, out := o }
  dsimp only at h2 hh ⊢
  rw [h2]
  obtain ⟨o3, r, h3, hr⟩ := id_real_same uc st.wantReal
    { c with nick := uc.nick, username := u, hostname := h, out := o2 }
  dsimp only at h3 hr ⊢
  rw [h3]
  obtain ⟨o4, a', h4, ha⟩ := id_account_same uc
    { c with nick := uc.nick, username := u, hostname := h, realname := r, out := o3 }
  dsimp only at h4 ha ⊢
  rw [h4]
  exact ⟨rfl, fun x => (hh x).2, fun x => (hh x).1, fun _ => hr, fun _ => ha⟩

/-- What holds for one client, given the connection. -/
def IdGood (cm : CaseMapping) (host : Str) (U R A : Prop) (conn : Option IdConn) (c : IdClient) : Prop :=
  IdTold cm host U c ∧ ∀ uc, conn = some uc → IdSync R A uc c

theorem good_send_other {cm host U R A uc c} (m : VMsg) (h : IdGood cm host U R A (some uc) c)
    (hm : m.command = b!"NICK" ∨ m.command = b!"SETNAME" ∨ m.command = b!"CHGHOST")
    (hn : casemap cm m.source ≠ casemap cm uc.nick) : IdGood cm host U R A (some uc) (idSend c m) := by
  have hs := h.2 uc rfl
  refine ⟨told_forward m h.1 hm (by rw [hs.nick]; exact hn), fun uc' hu => ?_⟩
  obtain rfl : uc = uc' := by simpa using hu
  obtain ⟨o, ho⟩ := id_send_same c m
  rw [ho]
  exact ⟨hs.nick, hs.host, hs.user, hs.real, hs.account⟩

theorem good_server {cm host U R A uc c} (m : VMsg) (h : IdGood cm host U R A (some uc) c) :
    IdGood cm host U R A (some (idServer cm uc m).1) ((idServer cm uc m).2 (some (idServer cm uc m).1) c) := by
  have hs := h.2 uc rfl
  have hacc : ∀ uc' : IdConn, uc'.nick = uc.nick → uc'.realname = uc.realname →
      IdGood cm host U R A (some uc') (idUpdateHost (some uc') (idUpdateAccount (some uc') c)) := by
    intro uc' e1 e2
    refine ⟨told_host _ (told_account _ h.1), fun uc'' hu => ?_⟩
    obtain rfl : uc' = uc'' := by simpa using hu
    obtain ⟨o, a, h1, ha⟩ := id_account_same uc' c
    rw [h1]
    obtain ⟨o2, u, ho, h2, hh⟩ := id_host_same uc' { c with account := a, out := o }
    dsimp only at h2 hh ⊢
    rw [h2]
    exact ⟨hs.nick.trans e1.symm, fun x => (hh x).2, fun x => (hh x).1,
      fun r s => (hs.real r s).trans e2.symm, fun _ => ha⟩
  have hhost : ∀ uc' : IdConn, uc'.nick = uc.nick → uc'.realname = uc.realname → uc'.account = uc.account →
      IdGood cm host U R A (some uc') (idUpdateHost (some uc') c) := by
    intro uc' e1 e2 e3
    refine ⟨told_host _ h.1, fun uc'' hu => ?_⟩
    obtain rfl : uc' = uc'' := by simpa using hu
    obtain ⟨o2, u, ho, h2, hh⟩ := id_host_same uc' c
    rw [h2]
    exact ⟨hs.nick.trans e1.symm, fun x => (hh x).2, fun x => (hh x).1,
      fun r s => (hs.real r s).trans e2.symm, fun r s => (hs.account r s).trans e3.symm⟩
  unfold idServer
  dsimp only
  split
  · rename_i hm
    split
    · rename_i n _ _
      split
      · refine ⟨told_nick _ _ h.1, fun uc' hu => ?_⟩
        obtain rfl : { uc with nick := n } = uc' := by simpa using hu
        obtain ⟨o, n', h1, hn⟩ := id_nick_same (some { uc with nick := n }) [] c
        dsimp only at h1 hn ⊢
        rw [h1]
        exact ⟨hn, hs.host, hs.user, hs.real, hs.account⟩
      · rename_i ho
        exact good_send_other m h (Or.inl hm) (by simpa using ho)
    · exact h
  · split
    · rename_i hm
      split
      · rename_i r _ _
        split
        · refine ⟨told_real _ _ h.1, fun uc' hu => ?_⟩
          obtain rfl : { uc with realname := r } = uc' := by simpa using hu
          obtain ⟨o, n', h1, hn⟩ := id_real_same { uc with realname := r } [] c
          dsimp only at h1 hn ⊢
          rw [h1]
          exact ⟨hs.nick, hs.host, hs.user, fun _ => hn, hs.account⟩
        · rename_i ho
          exact good_send_other m h (Or.inr (Or.inl hm)) (by simpa using ho)
      · exact h
    · split
      · rename_i hm
        split
        · split
          · exact hhost _ rfl rfl rfl
          · rename_i ho
            exact good_send_other m h (Or.inr (Or.inr hm)) (by simpa using ho)
        · exact h
      · split
        · split
          · exact hacc _ rfl rfl
          · exact h
        · split
          · split
            · exact hacc _ rfl rfl
            · exact h
          · split
            · split
              · dsimp only
                split
                · exact hhost _ rfl rfl rfl
                · exact hhost _ rfl rfl rfl
              · exact h
            · exact h

theorem id_num_send (c : IdClient) (m : VMsg) : (idSend c m).num = c.num := by
  obtain ⟨o, h⟩ := id_send_same c m
  rw [h]

theorem id_num_nick (conn : Option IdConn) (want : Str) (c : IdClient) : (idUpdateNick conn want c).num = c.num := by
  obtain ⟨o, n, h, _⟩ := id_nick_same conn want c
  rw [h]

theorem id_num_host (uc : IdConn) (c : IdClient) : (idUpdateHost (some uc) c).num = c.num := by
  obtain ⟨o, n, _, h, _⟩ := id_host_same uc c
  rw [h]

theorem id_num_real (uc : IdConn) (want : Str) (c : IdClient) :
    (idUpdateRealname (some uc) want c).num = c.num := by
  obtain ⟨o, n, h, _⟩ := id_real_same uc want c
  rw [h]

theorem id_num_account (uc : IdConn) (c : IdClient) : (idUpdateAccount (some uc) c).num = c.num := by
  obtain ⟨o, n, h, _⟩ := id_account_same uc c
  rw [h]

theorem id_num_server (cm : CaseMapping) (uc uc' : IdConn) (m : VMsg) (c : IdClient) :
    ((idServer cm uc m).2 (some uc') c).num = c.num := by
  unfold idServer
  dsimp only
  (repeat' split) <;> first
    | rfl
    | exact id_num_send _ _
    | exact id_num_nick _ _ _
    | exact id_num_real _ _ _
    | exact id_num_host _ _
    | exact (id_num_host _ _).trans (id_num_account _ _)

/-- The client is there, and all is well with it. -/
structure IdInv (cm : CaseMapping) (num : Nat) (host : Str) (U R A : Prop) (st : IdState) : Prop where
  nodup : (st.clients.map (fun c => c.num)).Nodup
  there : ∃ c ∈ st.clients, c.num = num
  good : ∀ c ∈ st.clients, c.num = num → IdGood cm host U R A st.conn c

theorem idInv_map {cm num host U R A st} (conn' : Option IdConn) (wn wr dr : Str) (as : List Str)
    (f : IdClient → IdClient) (h : IdInv cm num host U R A st) (hf : ∀ c, (f c).num = c.num)
    (hg : ∀ c ∈ st.clients, c.num = num → IdGood cm host U R A st.conn c → IdGood cm host U R A conn' (f c)) :
    IdInv cm num host U R A ⟨conn', wn, wr, dr, st.clients.map f, as⟩ := by
  refine ⟨?_, ?_, ?_⟩
  · have : (st.clients.map f).map (fun c => c.num) = st.clients.map (fun c => c.num) := by
      rw [List.map_map]
      exact List.map_congr_left (fun c _ => hf c)
    dsimp only
    rw [this]
    exact h.nodup
  · obtain ⟨c, hc, e⟩ := h.there
    exact ⟨f c, List.mem_map_of_mem hc, (hf c).trans e⟩
  · intro c hc e
    obtain ⟨d, hd, rfl⟩ := List.mem_map.mp hc
    exact hg d hd ((hf d).symm.trans e) (h.good d hd ((hf d).symm.trans e))

theorem good_caps {cm host U R A} {conn conn' : Option IdConn} {c : IdClient} (h : IdGood cm host U R A conn c)
    (hc : ∀ uc', conn' = some uc' → ∃ uc, conn = some uc ∧ uc'.nick = uc.nick ∧ uc'.username = uc.username ∧
      uc'.hostname = uc.hostname ∧ uc'.realname = uc.realname ∧ uc'.account = uc.account) :
    IdGood cm host U R A conn' (idSupportedCaps conn' c) := by
  refine ⟨told_caps _ h.1, fun uc' hu => ?_⟩
  obtain ⟨uc, h1, e1, e2, e3, e4, e5⟩ := hc uc' hu
  have hs := h.2 uc h1
  refine ⟨?_, ?_, ?_, ?_, ?_⟩
  · rw [e1]; exact hs.nick
  · rw [e3]; exact hs.host
  · rw [e3, e2]; exact hs.user
  · rw [e4]; exact hs.real
  · rw [e5]
    intro ha hb
    simp only [idSupportedCaps, Bool.and_eq_true] at hb
    exact hs.account ha hb.1

theorem idInv_disc {cm num host U R A st} (h : IdInv cm num host U R A st) :
    IdInv cm num host U R A (idDisconnected st) := by
  unfold idDisconnected
  exact idInv_map none st.wantNick st.wantReal st.dfltReal st.asked _ h (fun _ => rfl)
    (fun c _ _ hg => good_caps hg (fun _ e => by cases e))

theorem idInv_step {cm num host U R A st} (op : IdOp) (h : IdInv cm num host U R A st)
    (hl : op ≠ .logout num) (hU : U → op ≠ .capReq num .chghost true)
    (hR : R → op ≠ .capReq num .setname true) (hA : A → op ≠ .capReq num .sasl true) :
    IdInv cm num host U R A (idStep cm st op) := by
  cases op with
  | connected uc =>
    refine idInv_map (some uc) _ _ _ _ _ h ?_ ?_
    · intro c
      unfold idConnected
      rw [id_num_account, id_num_real, id_num_host, id_num_nick]
      rfl
    · intro c _ _ hg
      refine ⟨told_connected _ _ _ hg.1, fun uc' hu => ?_⟩
      obtain rfl : uc = uc' := by simpa using hu
      exact sync_connected R A uc _ _ c
  | disconnected => exact idInv_disc h
  | server m =>
    unfold idStep
    dsimp only
    split
    · exact h
    · rename_i uc hc
      refine idInv_map _ _ _ _ _ _ h (fun c => id_num_server cm uc _ m c) ?_
      intro c _ _ hg
      rw [hc] at hg
      exact good_server m hg
  | upCaps a b d =>
    unfold idStep
    dsimp only
    split
    · exact h
    · rename_i uc hc
      refine idInv_map _ _ _ _ _ _ h (fun _ => rfl) ?_
      intro c _ _ hg
      refine good_caps hg (fun uc' e => ⟨uc, hc, ?_⟩)
      obtain rfl := Option.some.inj e
      exact ⟨rfl, rfl, rfl, rfl, rfl⟩
  | login n ho a b d =>
    unfold idStep
    dsimp only
    split
    · exact h
    · rename_i hn
      refine ⟨?_, ?_, ?_⟩
      · dsimp only
        rw [List.map_append, List.nodup_append]
        refine ⟨h.nodup, by simp, ?_⟩
        intro x hx y hy e
        obtain ⟨c, hc, rfl⟩ := List.mem_map.mp hx
        rw [List.map_singleton, List.mem_singleton, id_login_num] at hy
        subst hy
        exact hn (List.any_eq_true.mpr ⟨c, hc, decide_eq_true e⟩)
      · obtain ⟨c, hc, e⟩ := h.there
        exact ⟨c, List.mem_append_left _ hc, e⟩
      · intro c hc e
        rcases List.mem_append.mp hc with hc | hc
        · exact h.good c hc e
        · obtain rfl := List.mem_singleton.mp hc
          rw [id_login_num] at e
          subst e
          obtain ⟨c', hc', e'⟩ := h.there
          exact absurd (List.any_eq_true.mpr ⟨c', hc', decide_eq_true e'⟩) hn
  | logout n =>
    have hn : n ≠ num := fun e => hl (by rw [e])
    refine ⟨h.nodup.sublist (List.filter_sublist.map _), ?_, fun c hc e => h.good c (List.mem_filter.mp hc).1 e⟩
    obtain ⟨c, hc, e⟩ := h.there
    exact ⟨c, List.mem_filter.mpr ⟨hc, decide_eq_true (by rw [e]; exact fun x => hn x.symm)⟩, e⟩
  | capReq n cap on =>
    refine idInv_map _ _ _ _ _ _ h ?_ ?_
    · intro c
      split
      · unfold idCapReq
        split <;> (try split) <;> rfl
      · rfl
    · intro c _ e hg
      split
      · rename_i en
        have en' : n = num := en.symm.trans e
        subst en'
        unfold idCapReq
        cases cap with
        | setname =>
          refine ⟨⟨hg.1.nick, hg.1.host, hg.1.real, hg.1.account, hg.1.user⟩, fun uc hu => ?_⟩
          have hs := hg.2 uc hu
          refine ⟨hs.nick, hs.host, hs.user, fun r s => ?_, hs.account⟩
          dsimp only at s
          exact absurd (by rw [s]) (hR r)
        | chghost =>
          dsimp only
          split
          · refine ⟨⟨hg.1.nick, hg.1.host, hg.1.real, hg.1.account, fun u s => ?_⟩, fun uc hu => ?_⟩
            · dsimp only at s
              exact absurd (by rw [s]) (hU u)
            · have hs := hg.2 uc hu
              exact ⟨hs.nick, hs.host, hs.user, hs.real, hs.account⟩
          · exact hg
        | sasl =>
          dsimp only
          split
          · refine ⟨⟨hg.1.nick, hg.1.host, hg.1.real, hg.1.account, hg.1.user⟩, fun uc hu => ?_⟩
            have hs := hg.2 uc hu
            refine ⟨hs.nick, hs.host, hs.user, hs.real, fun r s => ?_⟩
            dsimp only at s
            exact absurd (by rw [s]) (hA r)
          · exact hg
      · exact hg
  | setNick n => exact ⟨h.nodup, h.there, h.good⟩
  | setReal r d => exact ⟨h.nodup, h.there, h.good⟩
  | cNick n =>
    unfold idStep
    dsimp only
    split
    · exact ⟨h.nodup, h.there, h.good⟩
    · rename_i hc
      refine idInv_map _ _ _ _ _ _ h (fun c => id_num_nick _ _ c) ?_
      intro c _ _ hg
      refine ⟨told_nick _ _ hg.1, fun uc hu => ?_⟩
      rw [hc] at hu
      cases hu
  | cSetname n r =>
    unfold idStep
    dsimp only
    split
    · exact h
    · rename_i c hf
      unfold idSetname
      split
      · rename_i hr
        refine idInv_map _ _ _ _ _ _ h ?_ ?_
        · intro d
          split
          · exact id_num_send _ _
          · rfl
        · intro d hd ed hg
          split
          · rename_i en
            have hcm := List.mem_of_find?_eq_some hf
            obtain rfl : d = c := eq_of_nodup_map h.nodup hd hcm en
            by_cases hsn : d.setname = true
            · refine ⟨?_, fun uc hu => ?_⟩
              · have hs : idSend d ⟨d.nick, b!"SETNAME", [r]⟩
                    = { d with out := d.out ++ [⟨d.nick, b!"SETNAME", [r]⟩] } := by simp [idSend, hsn]
                rw [hs]
                refine ⟨?_, ?_, ?_, ?_, ?_⟩ <;> simp only [believes_snoc, clientReads, hg.1.nick, if_true]
                · exact hg.1.host
                · exact hr.symm
                · exact hg.1.account
                · exact hg.1.user
              · obtain ⟨o, ho⟩ := id_send_same d ⟨d.nick, b!"SETNAME", [r]⟩
                rw [ho]
                have hs := hg.2 uc hu
                exact ⟨hs.nick, hs.host, hs.user, hs.real, hs.account⟩
            · have hs : idSend d ⟨d.nick, b!"SETNAME", [r]⟩ = d := by simp [idSend, hsn]
              rw [hs]
              exact hg
          · exact hg
      · dsimp only
        split
        · exact ⟨h.nodup, h.there, h.good⟩
        · split
          · exact ⟨h.nodup, h.there, h.good⟩
          · exact idInv_disc ⟨h.nodup, h.there, h.good⟩

end Verif.Proof
