import Verif.Props.Register
import Verif.Proof.GoStr
import Verif.Proof.GoNum

/-! # C109: who has the right password gets in -/

namespace Verif.Props
open Verif.Model Verif.Spec Verif.Proof

/-! ## Specification -/

/-- A login name: a user, and optionally a network and the name of a client. -/
def loginName (user network client : Str) : Str :=
  user ++ (if network = [] then [] else b!"/" ++ network) ++ (if client = [] then [] else b!"@" ++ client)

/-- How a SASL response, encoded, is cut into lines: 400 bytes each, and a shorter one at the end, which is "+" if nothing
is left. -/
def responseLines (s : Str) : List Str :=
  if s.length < 400 then [if s = [] then b!"+" else s] else s.take 400 :: responseLines (s.drop 400)
termination_by s.length
decreasing_by simp; omega

/-- What is said in two places: it must be the same, unless one of them is silent. -/
def saidTwice (a b : Str) : Option Str :=
  if a = [] then some b else if b = [] ∨ b = a then some a else none

/-- The request to be bound to a network. -/
def bindLines : Option Int → List RegMsg
  | none => []
  | some id => [⟨b!"BOUNCER", [b!"BIND", itoaInt id]⟩]

/-- What a client sends that logs in by SASL PLAIN. -/
def saslLines (nick uname realname encoded : Str) (bind : Option Int) : List RegMsg :=
  [⟨b!"CAP", [b!"REQ", b!"sasl"]⟩, ⟨b!"NICK", [nick]⟩, ⟨b!"USER", [uname, b!"0", b!"*", realname]⟩,
    ⟨b!"AUTHENTICATE", [b!"PLAIN"]⟩] ++
  (responseLines encoded).map (fun c => ⟨b!"AUTHENTICATE", [c]⟩) ++ bindLines bind ++ [⟨b!"CAP", [b!"END"]⟩]

/-- How such an exchange ends: as a user, with what is said of the client and the network in the credentials and in the user
name; if this does not agree the connection is closed. -/
def loggedIn (user client network client' network' : Str) (id : Int) (imp : Bool) : RegConn :=
  match saidTwice client client', saidTwice network network' with
  | some c, some n => .registered user c n id imp
  | _, _ => .closed

/-! ## Proofs -/

private theorem unmarshal_login {u n c : Str} (hu : NoSep u) (hn : NoSep n) (hc : NoSep c) :
    unmarshalUsername (loginName u n c) = (u, c, n) := by
  obtain ⟨h1, h2, h3, h4, h5⟩ := C29_split u n c hu hn hc
  unfold loginName
  by_cases en : n = [] <;> by_cases ec : c = []
  · subst en; subst ec; simpa using h5
  · subst en; simpa [ec] using h4
  · subst ec; simpa [en] using h3
  · simpa [en, ec] using h1

private theorem run_append (lib : SaslLib) (env : AuthEnv) (c : RegConn) (a b : List RegMsg) :
    ((a ++ b).map (fun m => (env, m))).foldl (regStep lib) c =
      (b.map (fun m => (env, m))).foldl (regStep lib) ((a.map (fun m => (env, m))).foldl (regStep lib) c) := by
  rw [List.map_append, List.foldl_append]

private theorem step_pending (lib : SaslLib) (env : AuthEnv) (st st' : RegState) (m : RegMsg) (out : Outcome)
    (h : handleUnregistered lib env st m = (st', out)) (ho : out ≠ .fatal) (hn : st'.caps.negotiating = true) :
    regStep lib (.pending st) (env, m) = .pending st' := by
  unfold regStep
  dsimp only
  rw [h]
  dsimp only
  rw [if_neg ho, if_pos (Or.inr (Or.inr hn))]

private theorem step_auth (lib : SaslLib) (env : AuthEnv) (st : RegState) (c : Str) :
    handleUnregistered lib env st ⟨b!"AUTHENTICATE", [c]⟩ = regAuthenticate lib env st [c] := by
  unfold handleUnregistered
  simp

/-- The lines of a response, from the state in which they are expected. -/
private theorem chunks_run (lib : SaslLib) (env : AuthEnv) (creds : Creds) (u c n : Str) (imp : Bool) (hu : u ≠ [])
    (hck : checkCreds env creds = some (u, c, n, imp)) (resp : Str) (hresp : plainParse resp = some creds) (st : RegState)
    (hsasl : st.caps.reg.isEnabled b!"sasl" = true) (hneg : st.caps.negotiating = true) :
    ∀ (k : Nat) (s p : Str), s.length ≤ k → s.length % 4 = 0 → p.length + s.length ≤ 10240 → lib.decode (p ++ s) = some resp →
      ((((responseLines s).map (fun c => (⟨b!"AUTHENTICATE", [c]⟩ : RegMsg))).map (fun m => (env, m))).foldl (regStep lib)
        (.pending { st with sasl := some ⟨b!"PLAIN", p⟩ })) =
      .pending { setAuthUsername st u c n with impersonating := imp, sasl := none } := by
  intro k
  induction k with
  | zero =>
    intro s p hk _ hlen hd
    have : s = [] := List.length_eq_zero_iff.1 (by omega)
    subst this
    rw [responseLines, if_pos (by simp)]
    simp only [if_true, List.map_cons, List.map_nil, List.foldl_cons, List.foldl_nil]
    refine step_pending lib env _ _ _ .ok ?_ (by simp) hneg
    rw [step_auth]
    unfold regAuthenticate handleAuthenticate
    dsimp only
    rw [if_neg (by rw [hsasl]; simp), if_neg (by simp)]
    rw [if_pos rfl, if_neg (by simp at hlen ⊢; omega), if_neg (by simp), hd]
    dsimp only
    rw [if_pos rfl, hresp]
    dsimp only
    rw [hck]
    dsimp only
    rw [if_neg hu]
    rfl
  | succ k ih =>
    intro s p hk hmod hlen hd
    rw [responseLines]
    by_cases hs : s.length < 400
    · rw [if_pos hs]
      simp only [List.map_cons, List.map_nil, List.foldl_cons, List.foldl_nil]
      have hc : (if (if s = [] then b!"+" else s) = b!"+" then [] else (if s = [] then b!"+" else s)) = s := by
        by_cases e : s = []
        · rw [if_pos e, if_pos rfl, e]
        · rw [if_neg e, if_neg]
          intro e'; rw [e'] at hmod; cases hmod
      have hstar : (if s = [] then b!"+" else s) ≠ b!"*" := by
        by_cases e : s = []
        · rw [if_pos e]; decide
        · rw [if_neg e]; intro e'; rw [e'] at hmod; cases hmod
      generalize (if s = [] then b!"+" else s) = w at hc hstar
      refine step_pending lib env _ _ _ .ok ?_ (by simp) hneg
      rw [step_auth]
      unfold regAuthenticate handleAuthenticate
      dsimp only
      rw [if_neg (by rw [hsasl]; simp), if_neg hstar]
      rw [hc, if_neg (by omega), if_neg (by omega), hd]
      dsimp only
      rw [if_pos rfl, hresp]
      dsimp only
      rw [hck]
      dsimp only
      rw [if_neg hu]
      rfl
    · rw [if_neg hs]
      simp only [List.map_cons, List.foldl_cons]
      have hl : (s.take 400).length = 400 := by rw [List.length_take]; omega
      have hw : s.take 400 ≠ b!"+" := by intro e; rw [e] at hl; cases hl
      have hstar : s.take 400 ≠ b!"*" := by intro e; rw [e] at hl; cases hl
      rw [step_pending lib env _ { st with sasl := some ⟨b!"PLAIN", p ++ s.take 400⟩ } _ .ok ?_ (by simp) hneg]
      · refine ih (s.drop 400) (p ++ s.take 400) ?_ ?_ ?_ ?_
        · rw [List.length_drop]; omega
        · rw [List.length_drop]; omega
        · rw [List.length_append, List.length_drop, hl]; omega
        · rw [List.append_assoc, List.take_append_drop]; exact hd
      · rw [step_auth]
        unfold regAuthenticate handleAuthenticate
        dsimp only
        rw [if_neg (by rw [hsasl]; simp), if_neg hstar]
        rw [if_neg hw, if_neg (by omega), if_pos hl]

private theorem twice_eq (a b : Str) : saidTwice a b = if a ≠ [] ∧ b ≠ [] ∧ a ≠ b then none else some (if a = [] then b else a) := by
  unfold saidTwice
  by_cases h1 : a = []
  · simp [h1]
  · by_cases h2 : b = []
    · simp [h1, h2]
    · by_cases h3 : a = b
      · simp [h3]
      · simp [h1, h2, h3, Ne.symm h3]

private def capd (sasl : Str) (history : Bool) : DCaps :=
  { newDCaps sasl history with reg := (newDCaps sasl history).reg.setEnabled b!"sasl" true, negotiating := true }

private theorem run_core (lib : SaslLib) (env : AuthEnv) (sasl : Str) (history : Bool) (creds : Creds) (u c n : Str) (imp : Bool)
    (hu : u ≠ []) (hck : checkCreds env creds = some (u, c, n, imp)) (encoded resp : Str) (hd : lib.decode encoded = some resp)
    (hlen : encoded.length ≤ 10240) (hmod : encoded.length % 4 = 0) (hresp : plainParse resp = some creds)
    (nick uname realname : Str) (hnick : nick ≠ []) (huname : uname ≠ []) (bind : Option Int)
    (hbind : ∀ id, bind = some id → 0 < id ∧ id < 2 ^ 63) :
    regRun lib sasl history ((saslLines nick uname realname encoded bind).map (fun m => (env, m))) =
      loggedIn u c n (unmarshalUsername uname).2.1 (unmarshalUsername uname).2.2 (bind.getD 0) imp := by
  unfold regRun saslLines
  rw [run_append, run_append, run_append]
  have e1 : (([⟨b!"CAP", [b!"REQ", b!"sasl"]⟩, ⟨b!"NICK", [nick]⟩, ⟨b!"USER", [uname, b!"0", b!"*", realname]⟩,
      ⟨b!"AUTHENTICATE", [b!"PLAIN"]⟩] : List RegMsg).map (fun m => (env, m))).foldl (regStep lib)
      (.pending (newRegState sasl history)) =
      .pending ⟨capd sasl history, nick, uname, [], [], [], [], 0, some ⟨b!"PLAIN", []⟩, false⟩ := by
    simp only [List.map_cons, List.map_nil, List.foldl_cons, List.foldl_nil]
    rw [step_pending lib env _ ⟨capd sasl history, [], [], [], [], [], [], 0, none, false⟩ _ .ok (by cases history <;> rfl) (by simp) rfl]
    rw [step_pending lib env _ ⟨capd sasl history, nick, [], [], [], [], [], 0, none, false⟩ _ .ok rfl (by simp) rfl]
    rw [step_pending lib env _ ⟨capd sasl history, nick, uname, [], [], [], [], 0, none, false⟩ _ .ok rfl (by simp) rfl]
    rw [step_pending lib env _ ⟨capd sasl history, nick, uname, [], [], [], [], 0, some ⟨b!"PLAIN", []⟩, false⟩ _ .ok
      (by cases history <;> rfl) (by simp) rfl]
  rw [e1]
  have e2 := chunks_run lib env creds u c n imp hu hck resp hresp ⟨capd sasl history, nick, uname, [], [], [], [], 0, none, false⟩
    (by cases history <;> rfl) rfl encoded.length encoded [] (Nat.le_refl _) hmod (by simpa using hlen) hd
  dsimp only [setAuthUsername] at e2
  rw [e2]
  have e3 : ((bindLines bind).map (fun m => (env, m))).foldl (regStep lib)
      (.pending ⟨capd sasl history, nick, uname, [], u, n, c, 0, none, imp⟩) =
      .pending ⟨capd sasl history, nick, uname, [], u, n, c, bind.getD 0, none, imp⟩ := by
    cases bind with
    | none => rfl
    | some id =>
      obtain ⟨h1, h2⟩ := hbind id rfl
      simp only [bindLines, List.map_cons, List.map_nil, List.foldl_cons, List.foldl_nil]
      refine step_pending lib env _ _ _ .ok ?_ (by simp) rfl
      unfold handleUnregistered
      simp only [reduceCtorEq, List.cons.injEq, Nat.reduceEqDiff, false_and, and_false, if_false, and_self, if_true]
      unfold regBouncer
      have hup : asciiUpper b!"BIND" = b!"BIND" := by decide
      dsimp only
      rw [if_pos hup, if_neg hu]
      unfold parseBouncerNetID
      rw [parseInt64_itoaInt id (by omega) h2]
      dsimp only
      rw [if_neg (by omega)]
      rfl
  rw [e3]
  simp only [List.map_cons, List.map_nil, List.foldl_cons, List.foldl_nil]
  generalize bind.getD 0 = id
  unfold regStep
  dsimp only
  have e4 : handleUnregistered lib env ⟨capd sasl history, nick, uname, [], u, n, c, id, none, imp⟩ ⟨b!"CAP", [b!"END"]⟩ =
      (⟨{ capd sasl history with negotiating := false }, nick, uname, [], u, n, c, id, none, imp⟩, .ok) := rfl
  rw [e4]
  dsimp only
  rw [if_neg (by simp), if_neg (by simp [hnick, huname])]
  unfold register
  dsimp only
  rw [if_neg hu]
  dsimp only
  unfold loggedIn
  rw [twice_eq, twice_eq]
  by_cases h1 : c ≠ [] ∧ (unmarshalUsername uname).2.1 ≠ [] ∧ c ≠ (unmarshalUsername uname).2.1
  · rw [if_pos h1, if_pos h1]
  · rw [if_neg h1, if_neg h1]
    by_cases h2 : n ≠ [] ∧ (unmarshalUsername uname).2.2 ≠ [] ∧ n ≠ (unmarshalUsername uname).2.2
    · rw [if_pos h2, if_pos h2]
    · rw [if_neg h2, if_neg h2]

private theorem plain_three {a b c : Str} (ha : 0 ∉ a) (hb : 0 ∉ b) (hc : 0 ∉ c) :
    plainParse (a ++ 0 :: (b ++ 0 :: c)) = some (.plain a b c) := by
  have : a ++ 0 :: (b ++ 0 :: c) = joinStr [0] [a, b, c] := by simp [joinStr]
  unfold plainParse
  rw [this, splitByte_joinStr 0 [a, b, c] (by simp) (by
    intro x hx
    simp only [List.mem_cons, List.not_mem_nil, or_false] at hx
    rcases hx with rfl | rfl | rfl <;> assumption)]

/-! ## Theorems -/

/-- A client that logs in by SASL PLAIN with a password that the authenticator accepts gets in as that user, whatever the
length of the response and so the number of its lines, with the network and the client that its login name or its user name
says, and the network it asked to be bound to. -/
theorem C109_sasl (lib : SaslLib) (env : AuthEnv) (sasl : Str) (history : Bool) (auth : Str → Str → Bool)
    (hauth : env.plain = some auth) (user network client pw : Str) (hu : NoSep user) (hn : NoSep network) (hc : NoSep client)
    (hne : user ≠ []) (hok : auth user pw = true) (h0 : 0 ∉ loginName user network client) (hpw : 0 ∉ pw) (identity : Str)
    (hid : identity = [] ∨ identity = loginName user network client) (encoded : Str)
    (hd : lib.decode encoded = some (identity ++ 0 :: (loginName user network client ++ 0 :: pw)))
    (hlen : encoded.length ≤ 10240) (hmod : encoded.length % 4 = 0) (nick user' network' client' realname : Str)
    (hnick : nick ≠ []) (hu' : NoSep user') (hn' : NoSep network') (hc' : NoSep client') (hne' : user' ≠ [])
    (bind : Option Int) (hbind : ∀ id, bind = some id → 0 < id ∧ id < 2 ^ 63) :
    regRun lib sasl history ((saslLines nick (loginName user' network' client') realname encoded bind).map (fun m => (env, m))) =
      loggedIn user client network client' network' (bind.getD 0) false := by
  have hck : checkCreds env (.plain identity (loginName user network client) pw) = some (user, client, network, false) := by
    unfold checkCreds
    dsimp only
    rw [unmarshal_login hu hn hc]
    dsimp only
    rw [hauth]
    dsimp only
    rw [if_neg (by rw [hok]; simp), if_neg]
    rcases hid with e | e <;> simp [e]
  have hid0 : 0 ∉ identity := by rcases hid with e | e <;> rw [e] <;> simp [h0]
  have := run_core lib env sasl history _ user client network false hne hck encoded _ hd hlen hmod (plain_three hid0 h0 hpw) nick
    (loginName user' network' client') realname hnick (by unfold loginName; simp [hne']) bind hbind
  rw [this, unmarshal_login hu' hn' hc']

/-- An administrator gets in as another user the same way, with the network and the client of the name of that user. -/
theorem C109_impersonate (lib : SaslLib) (env : AuthEnv) (sasl : Str) (history : Bool) (auth : Str → Str → Bool)
    (hauth : env.plain = some auth) (admin adminLogin pw : Str) (ha : ∃ n c, NoSep admin ∧ NoSep n ∧ NoSep c ∧ adminLogin = loginName admin n c)
    (arec urec : AuthUser) (hadm : env.users admin = some arec) (harec : arec.admin = true) (hok : auth admin pw = true)
    (user network client : Str) (hu : NoSep user) (hn : NoSep network) (hc : NoSep client) (hne : user ≠ [])
    (hurec : env.users user = some urec) (hdiff : loginName user network client ≠ adminLogin)
    (h0 : 0 ∉ loginName user network client) (h0' : 0 ∉ adminLogin) (hpw : 0 ∉ pw) (encoded : Str)
    (hd : lib.decode encoded = some (loginName user network client ++ 0 :: (adminLogin ++ 0 :: pw)))
    (hlen : encoded.length ≤ 10240) (hmod : encoded.length % 4 = 0) (nick user' network' client' realname : Str)
    (hnick : nick ≠ []) (hu' : NoSep user') (hn' : NoSep network') (hc' : NoSep client') (hne' : user' ≠ [])
    (bind : Option Int) (hbind : ∀ id, bind = some id → 0 < id ∧ id < 2 ^ 63) :
    regRun lib sasl history ((saslLines nick (loginName user' network' client') realname encoded bind).map (fun m => (env, m))) =
      loggedIn user client network client' network' (bind.getD 0) true := by
  obtain ⟨an, ac, h1, h2, h3, rfl⟩ := ha
  have hck : checkCreds env (.plain (loginName user network client) (loginName admin an ac) pw) = some (user, client, network, true) := by
    unfold checkCreds
    dsimp only
    rw [unmarshal_login h1 h2 h3]
    dsimp only
    rw [hauth]
    dsimp only
    rw [if_neg (by rw [hok]; simp), if_pos ⟨by unfold loginName; simp [hne], hdiff⟩, hadm]
    dsimp only
    rw [if_neg (by rw [harec]; simp), unmarshal_login hu hn hc]
    dsimp only
    rw [hurec]
  have := run_core lib env sasl history _ user client network true hne hck encoded _ hd hlen hmod (plain_three h0 h0' hpw) nick
    (loginName user' network' client') realname hnick (by unfold loginName; simp [hne']) bind hbind
  rw [this, unmarshal_login hu' hn' hc']

/-- A client that sends the password with PASS gets in with NICK and USER, for the network and the client of its user name. -/
theorem C109_pass (lib : SaslLib) (env : AuthEnv) (sasl : Str) (history : Bool) (auth : Str → Str → Bool)
    (hauth : env.plain = some auth) (user network client pw nick realname : Str) (hu : NoSep user) (hn : NoSep network)
    (hc : NoSep client) (hne : user ≠ []) (hok : auth user pw = true) (hpw : pw ≠ []) (hnick : nick ≠ []) :
    regRun lib sasl history (([⟨b!"PASS", [pw]⟩, ⟨b!"NICK", [nick]⟩,
      ⟨b!"USER", [loginName user network client, b!"0", b!"*", realname]⟩] : List RegMsg).map (fun m => (env, m))) =
      .registered user client network 0 false := by
  have hln : loginName user network client ≠ [] := by unfold loginName; simp [hne]
  have hum := unmarshal_login hu hn hc
  generalize loginName user network client = login at *
  have e1 : regStep lib (.pending (newRegState sasl history)) (env, ⟨b!"PASS", [pw]⟩) =
      .pending ⟨newDCaps sasl history, [], [], pw, [], [], [], 0, none, false⟩ := rfl
  have e2 : regStep lib (.pending ⟨newDCaps sasl history, [], [], pw, [], [], [], 0, none, false⟩) (env, ⟨b!"NICK", [nick]⟩) =
      .pending ⟨newDCaps sasl history, nick, [], pw, [], [], [], 0, none, false⟩ := by
    unfold regStep
    have : handleUnregistered lib env ⟨newDCaps sasl history, [], [], pw, [], [], [], 0, none, false⟩ ⟨b!"NICK", [nick]⟩ =
      (⟨newDCaps sasl history, nick, [], pw, [], [], [], 0, none, false⟩, .ok) := rfl
    dsimp only
    rw [this]
    dsimp only
    rw [if_neg (by simp), if_pos (Or.inr (Or.inl rfl))]
  unfold regRun
  simp only [List.map_cons, List.map_nil, List.foldl_cons, List.foldl_nil]
  rw [e1, e2]
  unfold regStep
  have : handleUnregistered lib env ⟨newDCaps sasl history, nick, [], pw, [], [], [], 0, none, false⟩
      ⟨b!"USER", [login, b!"0", b!"*", realname]⟩ =
    (⟨newDCaps sasl history, nick, login, pw, [], [], [], 0, none, false⟩, .ok) := rfl
  dsimp only
  rw [this]
  dsimp only
  have hneg : (newDCaps sasl history).negotiating = false := rfl
  rw [if_neg (by simp), if_neg (by simp [hnick, hln, hneg])]
  unfold register
  dsimp only
  rw [if_pos rfl, if_neg hpw, hauth, hum]
  dsimp only
  rw [if_neg (by rw [hok]; simp)]
  dsimp only [setAuthUsername]
  rw [hum]
  dsimp only
  rw [if_neg (by simp), if_neg (by simp)]
  simp only
  by_cases e1 : client = [] <;> by_cases e2 : network = [] <;> simp [e1, e2]

/-- A request to be bound to a network before the client has said who it is is an error and has no effect. -/
theorem C109_bind_early (lib : SaslLib) (env : AuthEnv) (st : RegState) (h : st.authUsername = []) (params : List Str) :
    handleUnregistered lib env st ⟨b!"BOUNCER", params⟩ = (st, .ircError) := by
  have : handleUnregistered lib env st ⟨b!"BOUNCER", params⟩ = regBouncer st params := by
    unfold handleUnregistered; simp
  rw [this]
  unfold regBouncer
  split
  · rfl
  · split
    · split
      · rfl
      · first | rfl | rw [if_pos h]
    · rfl

/-- A client is bound to a network by number only if it asked for that, with a positive number. -/
theorem C109_bind_asked (lib : SaslLib) (sasl : Str) (history : Bool) (evs : List (AuthEnv × RegMsg)) (u c n : Str) (id : Int)
    (imp : Bool) (h : regRun lib sasl history evs = .registered u c n id imp) :
    id = 0 ∨ (0 < id ∧ ∃ ev ∈ evs, ∃ sub s rest, ev.2 = ⟨b!"BOUNCER", sub :: s :: rest⟩ ∧ asciiUpper sub = b!"BIND" ∧
      parseInt64 s = some id) := by
  have hinv : ∀ evs : List (AuthEnv × RegMsg), let P := fun (id : Int) => id = 0 ∨ (0 < id ∧ ∃ ev ∈ evs, ∃ sub s rest,
        ev.2 = ⟨b!"BOUNCER", sub :: s :: rest⟩ ∧ asciiUpper sub = b!"BIND" ∧ parseInt64 s = some id)
      (∀ st, regRun lib sasl history evs = .pending st → P st.networkID) ∧
      ∀ u c n id imp, regRun lib sasl history evs = .registered u c n id imp → P id := by
    intro evs
    induction evs using snocInd with
    | nil =>
      refine ⟨fun st hst => ?_, fun u c n id imp h => by cases h⟩
      have hst : RegConn.pending (newRegState sasl history) = .pending st := hst
      have := RegConn.pending.inj hst
      subst this
      exact Or.inl rfl
    | snoc evs ev ih =>
      have hrun : regRun lib sasl history (evs ++ [ev]) = regStep lib (regRun lib sasl history evs) ev := by
        simp [regRun, List.foldl_append]
      have mono : ∀ id : Int, (id = 0 ∨ (0 < id ∧ ∃ ev ∈ evs, ∃ sub s rest, ev.2 = ⟨b!"BOUNCER", sub :: s :: rest⟩ ∧
          asciiUpper sub = b!"BIND" ∧ parseInt64 s = some id)) →
          (id = 0 ∨ (0 < id ∧ ∃ e ∈ evs ++ [ev], ∃ sub s rest, e.2 = ⟨b!"BOUNCER", sub :: s :: rest⟩ ∧
          asciiUpper sub = b!"BIND" ∧ parseInt64 s = some id)) := by
        intro id h
        rcases h with h | ⟨h, e, he, r⟩
        · exact Or.inl h
        · exact Or.inr ⟨h, e, by simp [he], r⟩
      dsimp only at ih ⊢
      rw [hrun]
      cases hq : regRun lib sasl history evs with
      | closed => exact ⟨fun st h => (by cases h), fun u c n id imp h => (by cases h)⟩
      | registered u c n id imp =>
        refine ⟨fun st h => (by cases h), fun u' c' n' id' imp' h => ?_⟩
        have h : RegConn.registered u c n id imp = .registered u' c' n' id' imp' := h
        injection h with _ _ _ h4 _
        rw [← h4]
        exact mono id (ih.2 _ _ _ _ _ hq)
      | pending st =>
        have hold := mono _ (ih.1 st hq)
        have hnew : (handleUnregistered lib ev.1 st ev.2).1.networkID = st.networkID ∨
            (0 < (handleUnregistered lib ev.1 st ev.2).1.networkID ∧ ∃ sub s rest, ev.2 = ⟨b!"BOUNCER", sub :: s :: rest⟩ ∧
              asciiUpper sub = b!"BIND" ∧ parseInt64 s = some (handleUnregistered lib ev.1 st ev.2).1.networkID) := by
          obtain ⟨env, cmd, params⟩ := ev
          by_cases hb : cmd = b!"BOUNCER"
          · subst hb
            have : handleUnregistered lib env st ⟨b!"BOUNCER", params⟩ = regBouncer st params := by
              unfold handleUnregistered; simp
            dsimp only
            rw [this]
            unfold regBouncer
            split
            · exact Or.inl rfl
            · split
              · rename_i hsub
                split
                · exact Or.inl rfl
                · split
                  · exact Or.inl rfl
                  · split
                    · exact Or.inl rfl
                    · rename_i id hid
                      right
                      unfold parseBouncerNetID at hid
                      split at hid
                      · rename_i i hi
                        split at hid
                        · cases hid
                        · have := Option.some.inj hid
                          subst this
                          exact ⟨by dsimp only; omega, _, _, _, rfl, hsub, hi⟩
                      · cases hid
              · exact Or.inl rfl
          · left
            unfold handleUnregistered
            dsimp only
            repeat' split
            all_goals try rfl
            · unfold regAuthenticate
              repeat' (first | split | dsimp only)
              all_goals rfl
        have hnew' : (handleUnregistered lib ev.1 st ev.2).1.networkID = 0 ∨ (0 < (handleUnregistered lib ev.1 st ev.2).1.networkID ∧
            ∃ e ∈ evs ++ [ev], ∃ sub s rest, e.2 = ⟨b!"BOUNCER", sub :: s :: rest⟩ ∧ asciiUpper sub = b!"BIND" ∧
            parseInt64 s = some (handleUnregistered lib ev.1 st ev.2).1.networkID) := by
          rcases hnew with h | ⟨h, r⟩
          · rw [h]; exact hold
          · exact Or.inr ⟨h, ev, by simp, r⟩
        unfold regStep
        dsimp only
        generalize handleUnregistered lib ev.1 st ev.2 = r at hnew'
        obtain ⟨st', out⟩ := r
        dsimp only at hnew' ⊢
        split
        · exact ⟨fun st h => (by cases h), fun u c n id imp h => (by cases h)⟩
        · split
          · refine ⟨fun st h => ?_, fun u c n id imp h => by cases h⟩
            have := RegConn.pending.inj h
            subst this
            exact hnew'
          · split
            · refine ⟨fun st h => (by cases h), fun u c n id imp h => ?_⟩
              injection h with _ _ _ h4 _
              rw [← h4]
              exact hnew'
            · exact ⟨fun st h => (by cases h), fun u c n id imp h => (by cases h)⟩
  exact (hinv evs).2 u c n id imp h

private def lgEnv : AuthEnv := ⟨some (fun u p => u == b!"alice" && p.length == 500), none, fun _ => none⟩

private def lgLib : SaslLib := ⟨fun s => some (s.map (fun c => if c = 46 then 0 else c)), fun _ => none⟩

/-- A response of two lines. -/
example : lgLib.decode (b!".alice@phone.xxx" ++ List.replicate 500 120) =
      some ([] ++ 0 :: (loginName b!"alice" [] b!"phone" ++ 0 :: (b!"xxx" ++ List.replicate 500 120))) ∧
    (responseLines (b!".alice@phone.xxx" ++ List.replicate 500 120)).length = 2 ∧
    loggedIn b!"alice" b!"phone" [] [] b!"libera" 0 false = .registered b!"alice" b!"phone" b!"libera" 0 false ∧
    loggedIn b!"alice" b!"phone" [] b!"desk" b!"libera" 0 false = .closed := by
  refine ⟨by decide +kernel, ?_, by decide, by decide⟩
  rw [responseLines, if_neg (by rw [List.length_append, List.length_replicate]; decide), List.length_cons, responseLines,
    if_pos (by rw [List.length_drop, List.length_append, List.length_replicate]; decide)]
  rfl

end Verif.Props
