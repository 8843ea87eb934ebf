import Verif.Props.Network

/-! # C100: a change of a network changes what was asked for, and nothing else -/

namespace Verif.Props
open Verif.Model Verif.Proof

/-! ## Specification -/

/-- The first text that is not empty. -/
def firstSet : List Str → Str
  | [] => []
  | s :: l => if s = [] then firstSet l else s

/-- The nick the bouncer uses on the network: that of the network, else that of the account, else the name of the
account. -/
def nickUsed (st : NwState) (n : NetRec) : Str := firstSet [n.nick, st.nick, st.username]

/-- The username: that of the network, else the nick. -/
def usernameUsed (st : NwState) (n : NetRec) : Str := firstSet [n.username, nickUsed st n]

/-- The realname: that of the network, else that of the account, else the nick. -/
def realnameUsed (st : NwState) (n : NetRec) : Str := firstSet [n.realname, st.realname, nickUsed st n]

/-- A setting has the value given, or is as before. -/
def Becomes {α : Type} (given : Option α) (old new : α) : Prop :=
  match given with
  | some v => new = v
  | none => new = old

/-- The digits of a fingerprint, written with or without colons and in either case. -/
def pinDigits (fp : Str) : Str := asciiLower (fp.filter (fun c => decide (c ≠ 58)))

/-- The fingerprint that is stored. -/
def pinStored (fp : Str) : Str :=
  if pinDigits fp = [] then []
  else if (pinDigits fp).length = 64 then b!"sha-256:" ++ pinDigits fp
  else b!"sha-512:" ++ pinDigits fp

/-- The settings that a network has when nothing is said about it. -/
def plainNetwork (addr : Str) : NetRec :=
  { id := 0, name := [], addr := addr, nick := [], username := [], realname := [], pass := [], connectCommands := [],
    certFP := [], sasl := ⟨[], [], [], [], []⟩, autoAway := true, enabled := true }

/-- `new` is what the flags make of `old`. -/
structure FlagsDone (st : NwState) (fs : NetFlags) (old new : NetRec) : Prop where
  addr : Becomes fs.addr old.addr new.addr
  name : Becomes fs.name old.name new.name
  nick : ∃ wanted, Becomes fs.nick old.nick wanted ∧ nickUsed st new = firstSet [wanted, st.nick, st.username]
  username : Becomes fs.username old.username new.username
  realname : ∃ wanted, Becomes fs.realname old.realname wanted ∧
    realnameUsed st new = firstSet [wanted, st.realname, nickUsed st new]
  pass : Becomes fs.pass old.pass new.pass
  pin : Becomes (fs.certFP.map pinStored) old.certFP new.certFP
  away : Becomes fs.autoAway old.autoAway new.autoAway
  enabled : Becomes fs.enabled old.enabled new.enabled
  /-- a single empty command removes them all -/
  commands : new.connectCommands =
    if fs.connectCommands = [] then old.connectCommands
    else if fs.connectCommands = [b!""] then [] else fs.connectCommands
  sasl : new.sasl = old.sasl

/-- The flags are acceptable. -/
structure FlagsValid (ircOk : Str → Bool) (fs : NetFlags) : Prop where
  /-- the scheme is what comes before the first `://`, if there is one -/
  addr : ∀ scheme rest, fs.addr = some (scheme ++ b!"://" ++ rest) → (∀ p q, scheme ≠ p ++ b!"://" ++ q) →
    scheme = b!"ircs" ∨ scheme = b!"irc+insecure" ∨ scheme = b!"unix"
  name : fs.name ≠ some b!"*"
  pin : ∀ fp, fs.certFP = some fp → (∀ c ∈ pinDigits fp, (hexDigitVal c).isSome) ∧
    ((pinDigits fp).length = 0 ∨ (pinDigits fp).length = 64 ∨ (pinDigits fp).length = 128)
  commands : fs.connectCommands = [b!""] ∨ (fs.connectCommands.length ≤ 20 ∧ ∀ c ∈ fs.connectCommands, ircOk c = true)

/-- `new` is what the attributes of a BOUNCER command make of `old`, but for the nick. -/
structure AttrsDone (st : NwState) (a : NetAttrs) (old new : NetRec) : Prop where
  name : Becomes a.name old.name new.name
  username : Becomes a.username old.username new.username
  realname : ∃ wanted, Becomes a.realname old.realname wanted ∧
    realnameUsed st new = firstSet [wanted, st.realname, nickUsed st new]
  pass : Becomes a.pass old.pass new.pass
  /-- (for the address see C52) -/
  addr : a.host = none → a.port = none → a.tls = none → new.addr = old.addr
  pin : new.certFP = old.certFP
  away : new.autoAway = old.autoAway
  enabled : new.enabled = old.enabled
  commands : new.connectCommands = old.connectCommands
  sasl : new.sasl = old.sasl

/-- The same settings of the account. -/
def SameAccount (st st' : NwState) : Prop :=
  st'.username = st.username ∧ st'.nick = st.nick ∧ st'.realname = st.realname ∧ st'.admin = st.admin ∧
  st'.maxNetworks = st.maxNetworks ∧ st'.cfgMax = st.cfgMax

/-- The network `old` is replaced by `new`; nothing else changes. -/
def Replaced (st st' : NwState) (old new : NetRec) : Prop :=
  SameAccount st st' ∧ old ∈ st.networks ∧ new.id = old.id ∧
  ∀ m, m ∈ st'.networks ↔ m = new ∨ (m ∈ st.networks ∧ m.id ≠ old.id)

/-- The network `new` is added; nothing else changes. -/
def Added (st st' : NwState) (new : NetRec) : Prop :=
  SameAccount st st' ∧ (∀ m ∈ st.networks, m.id ≠ new.id) ∧ ∀ m, m ∈ st'.networks ↔ m = new ∨ m ∈ st.networks

/-! ## Lemmas -/

private theorem mem_addNetwork (l : List NetRec) (n m : NetRec) : m ∈ addNetwork l n ↔ m = n ∨ m ∈ l := by
  induction l with
  | nil => simp [addNetwork]
  | cons x l ih =>
    unfold addNetwork
    split
    · simp
    · simp only [List.mem_cons, ih]
      constructor
      · rintro (h | h | h) <;> simp [h]
      · rintro (h | h | h) <;> simp [h]

private theorem mem_removeNetwork {l : List NetRec} (nd : (l.map (·.id)).Nodup) (id : Nat) (m : NetRec) :
    m ∈ removeNetwork l id ↔ m ∈ l ∧ m.id ≠ id := by
  induction l with
  | nil => simp [removeNetwork]
  | cons x l ih =>
    simp only [List.map_cons, List.nodup_cons] at nd
    unfold removeNetwork
    split
    · rename_i h
      constructor
      · intro hm
        refine ⟨List.mem_cons_of_mem _ hm, fun e => nd.1 ?_⟩
        rw [h, ← e]
        exact List.mem_map_of_mem hm
      · rintro ⟨hm, hne⟩
        rcases List.mem_cons.1 hm with e | e
        · rw [e] at hne; exact absurd h hne
        · exact e
    · rename_i h
      simp only [List.mem_cons, ih nd.2]
      constructor
      · rintro (e | e)
        · rw [e]; exact ⟨.inl rfl, h⟩
        · exact ⟨.inr e.1, e.2⟩
      · rintro ⟨e | e, e2⟩
        · exact .inl e
        · exact .inr ⟨e, e2⟩

/-- user.go:1100-1107: the record that `updateNetwork` stores. -/
private def wiped (st : NwState) (r : NetRec) : NetRec :=
  let r := if r.nick = st.nick then { r with nick := [] } else r
  if r.realname = st.realname then { r with realname := [] } else r

private theorem update_replaced {lib : UrlLib} {st st' : NwState} {r old : NetRec} {enf ok : Bool}
    (w : NwIds st) (ho : old ∈ st.networks) (hid : r.id = old.id)
    (h : updateNetwork lib st r enf ok = some st') : Replaced st st' old (wiped st r) := by
  unfold updateNetwork at h
  split at h
  · cases h
  dsimp only at h
  change (if (!checkNetwork lib st (wiped st r)) = true then none else if (!ok) = true then none
    else some { st with networks := addNetwork (removeNetwork st.networks (wiped st r).id) (wiped st r) }) = some st' at h
  have hw : (wiped st r).id = old.id := by
    rw [← hid]; unfold wiped; dsimp only; repeat' split
    all_goals rfl
  split at h
  · cases h
  split at h
  · cases h
  have := Option.some.inj h; subst this
  refine ⟨⟨rfl, rfl, rfl, rfl, rfl, rfl⟩, ho, hw, fun m => ?_⟩
  rw [mem_addNetwork, mem_removeNetwork w.1, hw]

private theorem create_added {lib : UrlLib} {st st' : NwState} {r : NetRec} {enf : Bool} {db : Option Nat}
    (h : createNetwork lib st r enf db = some st') : ∃ id, db = some id ∧ Added st st' { r with id := id } := by
  unfold createNetwork at h
  split at h
  · cases h
  split at h
  · cases h
  split at h
  · cases h
  rename_i id
  split at h
  · cases h
  rename_i h3
  have := Option.some.inj h; subst this
  refine ⟨id, rfl, ⟨rfl, rfl, rfl, rfl, rfl, rfl⟩, fun m hm e => ?_, fun m => mem_addNetwork _ _ _⟩
  apply h3
  right
  unfold getNetworkByID
  rw [List.find?_isSome]
  exact ⟨m, hm, by simpa using e⟩

private theorem firstSet_skip (a : Str) (l : List Str) : firstSet (a :: a :: l) = firstSet (a :: l) := by
  simp only [firstSet]; split <;> simp

private theorem wiped_nick (st : NwState) (r : NetRec) : nickUsed st (wiped st r) = nickUsed st r := by
  have : (wiped st r).nick = if r.nick = st.nick then [] else r.nick := by
    unfold wiped; dsimp only; repeat' split
    all_goals rfl
  unfold nickUsed
  rw [this]
  split
  · rename_i h; rw [← h, firstSet_skip]; simp [firstSet]
  · rfl

private theorem wiped_rest (st : NwState) (r : NetRec) :
    (wiped st r).addr = r.addr ∧ (wiped st r).name = r.name ∧ (wiped st r).username = r.username ∧
    (wiped st r).pass = r.pass ∧ (wiped st r).connectCommands = r.connectCommands ∧ (wiped st r).certFP = r.certFP ∧
    (wiped st r).sasl = r.sasl ∧ (wiped st r).autoAway = r.autoAway ∧ (wiped st r).enabled = r.enabled ∧
    (wiped st r).id = r.id := by
  unfold wiped; dsimp only; repeat' split
  all_goals exact ⟨rfl, rfl, rfl, rfl, rfl, rfl, rfl, rfl, rfl, rfl⟩

private theorem firstSet_wipe (a d : Str) (l : List Str) :
    firstSet ((if a = d then [] else a) :: d :: l) = firstSet (a :: d :: l) := by
  split
  · rename_i h; subst h; rw [firstSet_skip]; simp [firstSet]
  · rfl

private theorem wiped_realname (st : NwState) (r : NetRec) :
    realnameUsed st (wiped st r) = firstSet [r.realname, st.realname, nickUsed st (wiped st r)] := by
  have : (wiped st r).realname = if r.realname = st.realname then [] else r.realname := by
    unfold wiped; dsimp only; repeat' split
    all_goals simp_all
  rw [realnameUsed, this, firstSet_wipe]

/-- What `NetFlags.update` does, field by field. -/
private structure FlagsRaw (fs : NetFlags) (old new : NetRec) : Prop where
  addr : new.addr = fs.addr.getD old.addr
  name : new.name = fs.name.getD old.name
  nick : new.nick = fs.nick.getD old.nick
  username : new.username = fs.username.getD old.username
  realname : new.realname = fs.realname.getD old.realname
  pass : new.pass = fs.pass.getD old.pass
  pin : Becomes (fs.certFP.map pinStored) old.certFP new.certFP
  away : new.autoAway = fs.autoAway.getD old.autoAway
  enabled : new.enabled = fs.enabled.getD old.enabled
  commands : new.connectCommands =
    if fs.connectCommands = [] then old.connectCommands
    else if fs.connectCommands = [b!""] then [] else fs.connectCommands
  sasl : new.sasl = old.sasl

private theorem becomes_getD {α : Type} (o : Option α) (old : α) : Becomes o old (o.getD old) := by
  cases o <;> rfl

private theorem flagAddr_eq {addr : Option Str} {r r' : NetRec} (h : flagAddr addr r = some r') :
    r' = { r with addr := addr.getD r.addr } := by
  unfold flagAddr at h
  split at h
  · exact (Option.some.inj h).symm
  · split at h
    · split at h
      · exact (Option.some.inj h).symm
      · cases h
    · exact (Option.some.inj h).symm

private theorem flagName_eq {name : Option Str} {r r' : NetRec} (h : flagName name r = some r') :
    r' = { r with name := name.getD r.name } := by
  unfold flagName at h
  split at h
  · exact (Option.some.inj h).symm
  · split at h
    · cases h
    · exact (Option.some.inj h).symm

private theorem flagCertFP_eq {fp : Option Str} {r r' : NetRec} (h : flagCertFP fp r = some r') :
    r' = { r with certFP := (fp.map pinStored).getD r.certFP } := by
  unfold flagCertFP at h
  split at h
  · exact (Option.some.inj h).symm
  · rename_i fp
    dsimp only at h
    change (if (!isHex (pinDigits fp)) = true then none
      else if (pinDigits fp).length = 0 then some { r with certFP := [] }
      else if (pinDigits fp).length = 64 then some { r with certFP := b!"sha-256:" ++ pinDigits fp }
      else if (pinDigits fp).length = 128 then some { r with certFP := b!"sha-512:" ++ pinDigits fp }
      else none) = some r' at h
    simp only [Option.map_some, Option.getD_some, pinStored]
    split at h
    · cases h
    split at h
    · rename_i h0
      rw [if_pos (List.length_eq_zero_iff.1 h0)]
      exact (Option.some.inj h).symm
    rename_i h0
    rw [if_neg (fun e => h0 (by rw [e]; rfl))]
    split at h
    · rename_i h1; rw [if_pos h1]; exact (Option.some.inj h).symm
    rename_i h1
    rw [if_neg h1]
    split at h
    · exact (Option.some.inj h).symm
    · cases h

private theorem flagCommands_eq {ircOk : Str → Bool} {cmds : List Str} {r r' : NetRec}
    (h : flagConnectCommands ircOk cmds r = some r') :
    r' = { r with connectCommands := if cmds = [] then r.connectCommands else if cmds = [b!""] then [] else cmds } := by
  unfold flagConnectCommands at h
  split at h
  · rename_i h0; rw [if_pos h0]; exact (Option.some.inj h).symm
  rename_i h0
  rw [if_neg h0]
  split at h
  · rename_i h1; rw [if_pos h1]; exact (Option.some.inj h).symm
  rename_i h1
  rw [if_neg h1]
  split at h
  · cases h
  split at h
  · exact (Option.some.inj h).symm
  · cases h

private theorem update_raw {ircOk : Str → Bool} {fs : NetFlags} {r r' : NetRec} (h : fs.update ircOk r = some r') :
    FlagsRaw fs r r' ∧ r'.id = r.id := by
  unfold NetFlags.update at h
  simp only [Option.bind_eq_bind, Option.bind_eq_some_iff] at h
  obtain ⟨r1, h1, r2, h2, r3, h3, h4⟩ := h
  have e1 := flagAddr_eq h1
  have e2 := flagName_eq h2
  have e3 := flagCertFP_eq h3
  have e4 := flagCommands_eq h4
  subst e1; subst e2; subst e3; subst e4
  exact ⟨⟨rfl, rfl, rfl, rfl, rfl, rfl, becomes_getD _ _, rfl, rfl, rfl, rfl⟩, rfl⟩

private theorem raw_done {st : NwState} {fs : NetFlags} {old new : NetRec} (f : FlagsRaw fs old new) :
    FlagsDone st fs old new := by
  refine ⟨f.addr ▸ becomes_getD _ _, f.name ▸ becomes_getD _ _, ⟨_, becomes_getD _ _, ?_⟩, f.username ▸ becomes_getD _ _,
    ⟨_, becomes_getD _ _, ?_⟩, f.pass ▸ becomes_getD _ _, f.pin, f.away ▸ becomes_getD _ _, f.enabled ▸ becomes_getD _ _,
    f.commands, f.sasl⟩
  · rw [nickUsed, f.nick]
  · rw [realnameUsed, f.realname]

private theorem raw_done_wiped {st : NwState} {fs : NetFlags} {old new : NetRec} (f : FlagsRaw fs old new) :
    FlagsDone st fs old (wiped st new) := by
  obtain ⟨w1, w2, w3, w4, w5, w6, w7, w8, w9, _⟩ := wiped_rest st new
  refine ⟨?_, ?_, ⟨_, becomes_getD _ _, ?_⟩, ?_, ⟨_, becomes_getD _ _, ?_⟩, ?_, ?_, ?_, ?_, ?_, ?_⟩
  · rw [w1, f.addr]; exact becomes_getD _ _
  · rw [w2, f.name]; exact becomes_getD _ _
  · rw [wiped_nick, nickUsed, f.nick]
  · rw [w3, f.username]; exact becomes_getD _ _
  · rw [wiped_realname, f.realname]
  · rw [w4, f.pass]; exact becomes_getD _ _
  · rw [w6]; exact f.pin
  · rw [w8, f.away]; exact becomes_getD _ _
  · rw [w9, f.enabled]; exact becomes_getD _ _
  · rw [w5]; exact f.commands
  · rw [w7]; exact f.sasl

private theorem fromArg_in {st : NwState} {name : Str} {cur : Option Nat} {n : NetRec}
    (h : networkFromArg st name cur = some n) : n ∈ st.networks := by
  unfold networkFromArg at h
  split at h
  · cases cur with
    | none => simp at h
    | some id => exact List.mem_of_find?_eq_some h
  · exact List.mem_of_find?_eq_some h

private theorem result_true {st st' : NwState} {o : Option NwState} (h : nwResult st o = (st', true)) : o = some st' := by
  cases o with
  | none => simp [nwResult] at h
  | some s => simp only [nwResult, Prod.mk.injEq, and_true] at h; rw [h]

/-! ## The service -/

/-- C100: `network create` adds one network, with the settings given and the usual ones otherwise. -/
theorem C100_create (lib : UrlLib) (ircOk : Str → Bool) (st st' : NwState) (admin : Bool) (fs : NetFlags)
    (db : Option Nat) (h : nwStep lib ircOk st (.svcCreate admin fs db) = (st', true)) :
    ∃ a new, fs.addr = some a ∧ Added st st' new ∧ FlagsDone st fs (plainNetwork a) new := by
  simp only [nwStep] at h
  have h := result_true h
  cases ha : fs.addr with
  | none => rw [ha] at h; cases h
  | some a =>
    rw [ha] at h
    dsimp only at h
    split at h
    · cases h
    obtain ⟨r, hr, hc⟩ := Option.bind_eq_some_iff.1 h
    obtain ⟨id, _, hadd⟩ := create_added hc
    obtain ⟨this, _⟩ := update_raw hr
    exact ⟨a, _, rfl, hadd, raw_done ⟨this.1, this.2, this.3, this.4, this.5, this.6, this.7, this.8, this.9, this.10, this.11⟩⟩

/-- C100: `network update` changes the network that is named, and only in the settings given. -/
theorem C100_update (lib : UrlLib) (ircOk : Str → Bool) (st st' : NwState) (w : NwIds st) (admin : Bool) (name : Str)
    (cur : Option Nat) (fs : NetFlags) (ok : Bool)
    (h : nwStep lib ircOk st (.svcUpdate admin name cur fs ok) = (st', true)) :
    ∃ old new, networkFromArg st name cur = some old ∧ Replaced st st' old new ∧ FlagsDone st fs old new := by
  simp only [nwStep] at h
  have h := result_true h
  cases hn : networkFromArg st name cur with
  | none => rw [hn] at h; cases h
  | some old =>
    rw [hn] at h
    dsimp only at h
    split at h
    · cases h
    obtain ⟨r, hr, hc⟩ := Option.bind_eq_some_iff.1 h
    obtain ⟨hraw, hid⟩ := update_raw hr
    exact ⟨old, _, rfl, update_replaced w (fromArg_in hn) hid hc, raw_done_wiped hraw⟩

/-- Two networks, one of which is changed: its nick is set to that of the account, its connect commands are removed and
its fingerprint is set. -/
private def exSetUser : NwState :=
  { username := b!"alice", nick := b!"ali", realname := b!"Alice", admin := false, maxNetworks := -1, cfgMax := -1,
    networks := [{ id := 1, addr := b!"irc.libera.chat", name := b!"libera", nick := b!"alice1", pass := b!"x",
                   connectCommands := [b!"JOIN #a"] }, { id := 2, addr := b!"irc.oftc.net" }] }

private def exSetFlags : NetFlags :=
  { nick := some b!"ali", connectCommands := [b!""], enabled := some false,
    certFP := some (List.flatten (List.replicate 31 b!"aB:") ++ b!"aB") }

example : (nwStep exUrlLib (fun _ => true) exSetUser (.svcUpdate false b!"libera" none exSetFlags true)).2 = true ∧
    (nwStep exUrlLib (fun _ => true) exSetUser (.svcUpdate false b!"libera" none exSetFlags true)).1.networks.map
      (fun n => ([n.nick, n.pass, n.certFP.take 12], n.connectCommands, n.enabled)) =
      [([[], b!"x", b!"sha-256:abab"], [], false), ([[], [], []], [], true)] := by decide +kernel

example : (nwStep exUrlLib (fun _ => true) exSetUser
      (.svcCreate false { addr := some b!"irc.ergo.chat", autoAway := some false } (some 3))).2 = true := by decide +kernel

private theorem cutStr_le (sep p q : Str) (hs : sep ≠ []) :
    ∃ a b, cutStr sep (p ++ sep ++ q) = some (a, b) ∧ a.length ≤ p.length := by
  induction p with
  | nil =>
    cases sep with
    | nil => exact absurd rfl hs
    | cons c sep =>
      refine ⟨[], q, ?_, Nat.le_refl _⟩
      simp [cutStr]
  | cons c p ih =>
    obtain ⟨a, b, h1, h2⟩ := ih
    simp only [List.cons_append, cutStr]
    split
    · exact ⟨_, _, rfl, Nat.zero_le _⟩
    · rw [h1]; exact ⟨_, _, rfl, by simpa using h2⟩

private theorem cutStr_first {sep s a b : Str} (hs : sep ≠ []) (h : cutStr sep s = some (a, b)) (p q : Str) :
    a ≠ p ++ sep ++ q := by
  intro e
  have h1 := cutStr_some h
  obtain ⟨a', b', h2, h3⟩ := cutStr_le sep p (q ++ sep ++ b) hs
  have : s = p ++ sep ++ (q ++ sep ++ b) := by rw [h1, e]; simp
  rw [← this, h] at h2
  have := congrArg Prod.fst (Option.some.inj h2)
  simp only at this
  rw [← this, e] at h3
  simp only [List.length_append] at h3
  have : 0 < sep.length := List.length_pos_iff.2 hs
  omega

private theorem cutStr_scheme (scheme rest : Str) (hn : ∀ p q, scheme ≠ p ++ b!"://" ++ q) :
    cutStr b!"://" (scheme ++ b!"://" ++ rest) = some (scheme, rest) := by
  induction scheme with
  | nil => simp [cutStr]
  | cons c cs ih =>
    have ih := ih (fun p q e => hn (c :: p) q (by rw [e]; rfl))
    have hp : (b!"://").isPrefixOf (c :: (cs ++ b!"://" ++ rest)) = false := by
      clear ih
      match cs, hn with
      | [], _ => simp [List.isPrefixOf]
      | [d], _ => simp [List.isPrefixOf]
      | d :: e :: cs, hn =>
        by_cases h : c = 58 ∧ d = 47 ∧ e = 47
        · obtain ⟨rfl, rfl, rfl⟩ := h
          exact absurd rfl (hn [] cs)
        · simp only [List.cons_append, List.isPrefixOf]
          simp
          intro h1 h2 h3
          exact h ⟨h1.symm, h2.symm, h3.symm⟩
    simp only [List.cons_append, cutStr]
    rw [hp, ih]
    rfl

/-- C100: the flags are accepted if and only if they are valid. -/
theorem C100_valid (ircOk : Str → Bool) (fs : NetFlags) (old : NetRec) :
    (fs.update ircOk old).isSome ↔ FlagsValid ircOk fs := by
  have hA : ∀ r, (flagAddr fs.addr r).isSome ↔ ∀ scheme rest, fs.addr = some (scheme ++ b!"://" ++ rest) →
      (∀ p q, scheme ≠ p ++ b!"://" ++ q) → scheme = b!"ircs" ∨ scheme = b!"irc+insecure" ∨ scheme = b!"unix" := by
    intro r
    cases fs.addr with
    | none => simp [flagAddr]
    | some a =>
      cases hc : cutStr b!"://" a with
      | none =>
        simp only [flagAddr, hc, Option.isSome_some, true_iff]
        intro scheme rest e hn
        have := cutStr_scheme scheme rest hn
        rw [← Option.some.inj e, hc] at this
        cases this
      | some x =>
        obtain ⟨sc, re⟩ := x
        simp only [flagAddr, hc]
        constructor
        · intro h scheme rest e hn
          have := cutStr_scheme scheme rest hn
          rw [← Option.some.inj e, hc] at this
          have := congrArg Prod.fst (Option.some.inj this)
          simp only at this
          rw [← this]
          split at h
          · assumption
          · cases h
        · intro h
          rw [if_pos (h sc re (by rw [cutStr_some hc]) (cutStr_first (by simp) hc))]
          rfl
  have hN : ∀ r, (flagName fs.name r).isSome ↔ fs.name ≠ some b!"*" := by
    intro r
    cases fs.name with
    | none => simp [flagName]
    | some n => simp only [flagName]; split <;> simp_all
  have hP : ∀ r, (flagCertFP fs.certFP r).isSome ↔ ∀ fp, fs.certFP = some fp →
      (∀ c ∈ pinDigits fp, (hexDigitVal c).isSome) ∧
      ((pinDigits fp).length = 0 ∨ (pinDigits fp).length = 64 ∨ (pinDigits fp).length = 128) := by
    intro r
    cases fs.certFP with
    | none => simp [flagCertFP]
    | some fp =>
      unfold flagCertFP
      dsimp only
      change (if (!isHex (pinDigits fp)) = true then none
        else if (pinDigits fp).length = 0 then some { r with certFP := [] }
        else if (pinDigits fp).length = 64 then some { r with certFP := b!"sha-256:" ++ pinDigits fp }
        else if (pinDigits fp).length = 128 then some { r with certFP := b!"sha-512:" ++ pinDigits fp }
        else none).isSome ↔ _
      have hx : isHex (pinDigits fp) = true ↔
          (pinDigits fp).length % 2 = 0 ∧ ∀ c ∈ pinDigits fp, (hexDigitVal c).isSome = true := by
        simp [isHex]
      constructor
      · intro h fp' e
        cases e
        split at h
        · cases h
        rename_i h0
        have h0 := hx.1 (by simpa using h0)
        refine ⟨h0.2, ?_⟩
        split at h
        · exact .inl (by assumption)
        split at h
        · exact .inr (.inl (by assumption))
        split at h
        · exact .inr (.inr (by assumption))
        · cases h
      · intro h
        obtain ⟨h1, h2⟩ := h fp rfl
        have h0 : isHex (pinDigits fp) = true := hx.2 ⟨by omega, h1⟩
        rw [if_neg (by simp [h0])]
        rcases h2 with h2 | h2 | h2 <;> simp [h2]
  have hC : ∀ r, (flagConnectCommands ircOk fs.connectCommands r).isSome ↔
      fs.connectCommands = [b!""] ∨ (fs.connectCommands.length ≤ 20 ∧ ∀ c ∈ fs.connectCommands, ircOk c = true) := by
    intro r
    unfold flagConnectCommands
    split
    · simp [*]
    split
    · simp [*]
    rename_i h1
    have h1 : fs.connectCommands ≠ [b!""] := h1
    split
    · simp [h1]; omega
    rename_i h2
    split
    · rename_i h3
      simp only [Option.isSome_some, true_iff]
      exact .inr ⟨by omega, List.all_eq_true.1 h3⟩
    · rename_i h3
      simp only [Option.isSome_none, Bool.false_eq_true, false_iff]
      rintro (h | h)
      · exact h1 h
      · exact h3 (List.all_eq_true.2 h.2)
  unfold NetFlags.update
  simp only [Option.bind_eq_bind]
  constructor
  · intro h
    obtain ⟨r', h⟩ := Option.isSome_iff_exists.1 h
    simp only [Option.bind_eq_some_iff] at h
    obtain ⟨r1, h1, r2, h2, r3, h3, h4⟩ := h
    exact ⟨(hA _).1 (by rw [h1]; rfl), (hN _).1 (by rw [h2]; rfl), (hP _).1 (by rw [h3]; rfl), (hC _).1 (by rw [h4]; rfl)⟩
  · intro v
    obtain ⟨r1, h1⟩ := Option.isSome_iff_exists.1 ((hA old).2 v.addr)
    obtain ⟨r2, h2⟩ := Option.isSome_iff_exists.1 ((hN r1).2 v.name)
    rw [h1, Option.bind_some, h2, Option.bind_some]
    obtain ⟨r3, h3⟩ := Option.isSome_iff_exists.1 ((hP _).2 v.pin)
    rw [h3, Option.bind_some]
    exact (hC _).2 v.commands

/-- An address with a scheme that is not known, and two commands of which one cannot be parsed. -/
example : FlagsValid (fun _ => true) { addr := some b!"irc.libera.chat", connectCommands := [b!"JOIN #a"] } ∧
    ¬ FlagsValid (fun _ => true) { addr := some b!"http://irc.libera.chat" } ∧
    ¬ FlagsValid (fun c => decide (c ≠ [])) { connectCommands := [b!"JOIN #a", []] } := by
  simp only [← C100_valid _ _ { addr := [] }]
  decide +kernel

/-! ## BOUNCER -/

/-- The nick that is asked for by a BOUNCER command can be told from the defaults: it is not the name of the account,
or the account has no nick of its own. -/
def NickTold (st : NwState) (wanted : Str) : Prop := wanted ≠ st.username ∨ st.nick = [] ∨ st.nick = st.username

private theorem attrs_raw {lib : UrlLib} {r r' : NetRec} {a : NetAttrs} (h : updateNetworkAttrs lib r a = some r') :
    ∃ addr, r' = { r with addr := addr, name := a.name.getD r.name, nick := a.nickname.getD r.nick, username := a.username.getD r.username, realname := a.realname.getD r.realname, pass := a.pass.getD r.pass } ∧ (a.host = none → a.port = none → a.tls = none → addr = r.addr) ∧ a.unknown = false := by
  unfold updateNetworkAttrs at h
  dsimp only at h
  split at h
  · cases h
  rename_i hu
  split at h
  · rename_i hs
    split at h
    · cases h
    · refine ⟨_, (Option.some.inj h).symm, ?_, by simpa using hu⟩
      intro h1 h2 h3
      simp [h1, h2, h3] at hs
  · exact ⟨r.addr, (Option.some.inj h).symm, fun _ _ _ => rfl, by simpa using hu⟩

private theorem defaults_fields (st : NwState) (r : NetRec) :
    wipeDefaults st r = { r with nick := if r.nick = st.username then [] else r.nick,
                                 realname := if r.realname = st.realname then [] else r.realname } := by
  unfold wipeDefaults
  dsimp only
  by_cases h1 : r.nick = st.username
  · rw [if_pos h1, if_pos h1]
    dsimp only
    by_cases h2 : r.realname = st.realname
    · rw [if_pos h2, if_pos h2]
    · rw [if_neg h2, if_neg h2]
  · rw [if_neg h1, if_neg h1]
    by_cases h2 : r.realname = st.realname
    · rw [if_pos h2, if_pos h2]
    · rw [if_neg h2, if_neg h2]

private theorem wiped_fields (st : NwState) (r : NetRec) :
    wiped st r = { r with nick := if r.nick = st.nick then [] else r.nick,
                          realname := if r.realname = st.realname then [] else r.realname } := by
  unfold wiped
  dsimp only
  by_cases h1 : r.nick = st.nick
  · rw [if_pos h1, if_pos h1]
    dsimp only
    by_cases h2 : r.realname = st.realname
    · rw [if_pos h2, if_pos h2]
    · rw [if_neg h2, if_neg h2]
  · rw [if_neg h1, if_neg h1]
    by_cases h2 : r.realname = st.realname
    · rw [if_pos h2, if_pos h2]
    · rw [if_neg h2, if_neg h2]

private theorem told_nick {st : NwState} {wanted : Str} (ht : NickTold st wanted) :
    firstSet [if wanted = st.username then [] else wanted, st.nick, st.username] =
      firstSet [wanted, st.nick, st.username] := by
  split
  · rename_i h
    rcases ht with h1 | h1 | h1
    · exact absurd h h1
    · rw [h, h1]; simp [firstSet]
    · rw [h, h1]; simp [firstSet]
  · rfl

/-- C100 (partial): BOUNCER CHANGENETWORK changes the network with the identifier given, and only in the attributes
given.

Partial: for the nick, see `C100_bouncer_nick_violated`. -/
theorem C100_bouncer_change_partial (lib : UrlLib) (ircOk : Str → Bool) (st st' : NwState) (w : NwIds st) (id : Nat)
    (a : NetAttrs) (ok : Bool) (h : nwStep lib ircOk st (.bncChange id a ok) = (st', true)) :
    ∃ old new, old.id = id ∧ Replaced st st' old new ∧ AttrsDone st a old new ∧ a.unknown = false ∧
      ∃ wanted, Becomes a.nickname old.nick wanted ∧
        (NickTold st wanted → nickUsed st new = firstSet [wanted, st.nick, st.username]) := by
  simp only [nwStep] at h
  have h := result_true h
  cases hn : getNetworkByID st id with
  | none => rw [hn] at h; cases h
  | some old =>
    rw [hn] at h
    dsimp only at h
    obtain ⟨r, hr, hc⟩ := Option.bind_eq_some_iff.1 h
    obtain ⟨addr, hraw, haddr, hu⟩ := attrs_raw hr
    have hmem : old ∈ st.networks := List.mem_of_find?_eq_some hn
    have hid : old.id = id := by simpa using List.find?_some hn
    have hrep := update_replaced w hmem (by rw [defaults_fields, hraw]) hc
    refine ⟨old, _, hid, hrep, ?_, hu, _, becomes_getD _ _, ?_⟩
    · refine ⟨?_, ?_, ⟨_, becomes_getD _ _, ?_⟩, ?_, ?_, ?_, ?_, ?_, ?_, ?_⟩
      · rw [wiped_fields, defaults_fields, hraw]; exact becomes_getD _ _
      · rw [wiped_fields, defaults_fields, hraw]; exact becomes_getD _ _
      · rw [wiped_realname, defaults_fields, hraw]
        exact firstSet_wipe _ _ _
      · rw [wiped_fields, defaults_fields, hraw]; exact becomes_getD _ _
      · rw [wiped_fields, defaults_fields, hraw]; exact haddr
      · rw [wiped_fields, defaults_fields, hraw]
      · rw [wiped_fields, defaults_fields, hraw]
      · rw [wiped_fields, defaults_fields, hraw]
      · rw [wiped_fields, defaults_fields, hraw]
      · rw [wiped_fields, defaults_fields, hraw]
    · intro ht
      rw [wiped_nick, defaults_fields, hraw]
      exact told_nick ht

/-- C100 (partial): BOUNCER ADDNETWORK adds one network, with the attributes given and the nick of the client, unless
another is given.

Partial: for the nick, see `C100_bouncer_nick_violated`. -/
theorem C100_bouncer_add_partial (lib : UrlLib) (ircOk : Str → Bool) (st st' : NwState) (nick : Str)
    (a : NetAttrs) (db : Option Nat) (h : nwStep lib ircOk st (.bncAdd nick a db) = (st', true)) :
    ∃ new, Added st st' new ∧ AttrsDone st a (plainNetwork []) new ∧ a.unknown = false ∧
      (NickTold st (a.nickname.getD nick) →
        nickUsed st new = firstSet [a.nickname.getD nick, st.nick, st.username]) := by
  simp only [nwStep] at h
  have h := result_true h
  obtain ⟨r, hr, hc⟩ := Option.bind_eq_some_iff.1 h
  obtain ⟨addr, hraw, haddr, hu⟩ := attrs_raw hr
  obtain ⟨id, _, hadd⟩ := create_added hc
  refine ⟨_, hadd, ?_, hu, ?_⟩
  · refine ⟨?_, ?_, ⟨_, becomes_getD _ _, ?_⟩, ?_, ?_, ?_, ?_, ?_, ?_, ?_⟩
    · rw [defaults_fields, hraw]; exact becomes_getD _ _
    · rw [defaults_fields, hraw]; exact becomes_getD _ _
    · rw [defaults_fields, hraw]; exact firstSet_wipe _ _ _
    · rw [defaults_fields, hraw]; exact becomes_getD _ _
    · rw [defaults_fields, hraw]; exact haddr
    · rw [defaults_fields, hraw]; rfl
    · rw [defaults_fields, hraw]; rfl
    · rw [defaults_fields, hraw]; rfl
    · rw [defaults_fields, hraw]; rfl
    · rw [defaults_fields, hraw]; rfl
  · intro ht
    rw [defaults_fields, hraw]
    exact told_nick ht

/-- The nick is changed, the realname set to that of the account. -/
example : (nwStep exUrlLib (fun _ => true) exSetUser
      (.bncChange 1 { nickname := some b!"bob", realname := some b!"Alice" } true)).2 = true ∧
    NickTold exSetUser b!"bob" ∧
    (nwStep exUrlLib (fun _ => true) exSetUser
      (.bncAdd b!"ali" { host := some b!"irc.ergo.chat", username := some b!"a" } (some 3))).2 = true := by
  refine ⟨by decide +kernel, .inl (by decide), by decide +kernel⟩

/-- C100 is violated for the user `alice` whose nick is `ali`: their client asks for the nick `alice` on a network with
BOUNCER CHANGENETWORK (or ADDNETWORK), this succeeds, and the bouncer uses the nick `ali` there. -/
theorem C100_bouncer_nick_violated :
    let r := nwStep exUrlLib (fun _ => true) exSetUser (.bncChange 1 { nickname := some b!"alice" } true)
    let q := nwStep exUrlLib (fun _ => true) exSetUser
      (.bncAdd b!"ali" { host := some b!"irc.ergo.chat", nickname := some b!"alice" } (some 3))
    r.2 = true ∧ (getNetworkByID r.1 1).map (nickUsed r.1) = some b!"ali" ∧
    q.2 = true ∧ (getNetworkByID q.1 3).map (nickUsed q.1) = some b!"ali" := by decide +kernel

/-! ## Other ways -/

/-- C100: a network that is added because a client asked for its server has that address, the nick of the client, and
the usual settings. -/
theorem C100_login (lib : UrlLib) (ircOk : Str → Bool) (st st' : NwState) (name nick : Str) (reachable : Bool)
    (db : Option Nat) (h : nwStep lib ircOk st (.login name nick reachable db) = (st', true)) :
    st' = st ∨ ∃ id, reachable = true ∧ getNetwork st name = none ∧
      Added st st' { plainNetwork name with id := id, nick := nick } := by
  simp only [nwStep] at h
  split at h
  · simp only [Prod.mk.injEq, and_true] at h; exact .inl h.symm
  split at h
  · simp at h
  split at h
  · simp only [Prod.mk.injEq, and_true] at h; exact .inl h.symm
  · rename_i hn
    have h := result_true h
    split at h
    · rename_i hr
      obtain ⟨id, _, hadd⟩ := create_added h
      exact .inr ⟨id, hr, hn, hadd⟩
    · cases h

example : (nwStep exUrlLib (fun _ => true) exSetUser (.login b!"irc.ergo.chat" b!"ali" true (some 7))).2 = true := by
  decide +kernel

private theorem map_replaced {st : NwState} {id : Nat} (f : NetRec → NetRec) (w : NwIds st) {old : NetRec}
    (ho : old ∈ st.networks) (hid : old.id = id) (hf : (f old).id = old.id) :
    Replaced st (mapNetwork st id f) old (f old) := by
  refine ⟨⟨rfl, rfl, rfl, rfl, rfl, rfl⟩, ho, hf, fun m => ?_⟩
  have huniq : ∀ n ∈ st.networks, n.id = id → n = old := by
    intro n hn hn'
    obtain ⟨nd, _⟩ := w
    have : ∀ (l : List NetRec), (l.map (·.id)).Nodup → n ∈ l → old ∈ l → n = old := by
      intro l
      induction l with
      | nil => intro _ h; simp at h
      | cons x l ih =>
        intro nd h1 h2
        simp only [List.map_cons, List.nodup_cons] at nd
        rcases List.mem_cons.1 h1 with e1 | e1 <;> rcases List.mem_cons.1 h2 with e2 | e2
        · rw [e1, e2]
        · exact absurd (by rw [← e1, hn', ← hid]; exact List.mem_map_of_mem e2) nd.1
        · exact absurd (by rw [← e2, hid, ← hn']; exact List.mem_map_of_mem e1) nd.1
        · exact ih nd.2 e1 e2
    exact this _ nd hn ho
  simp only [mapNetwork, List.mem_map]
  constructor
  · rintro ⟨n, hn, rfl⟩
    by_cases h : n.id = id
    · rw [if_pos h, huniq n hn h]; exact .inl rfl
    · rw [if_neg h]; exact .inr ⟨hn, by rw [hid]; exact h⟩
  · rintro (h | h)
    · exact ⟨old, ho, by rw [if_pos hid, h]⟩
    · exact ⟨m, h.1, by rw [if_neg (by rw [← hid]; exact h.2)]⟩

/-- C100: NICK changes the nick of the network, and nothing else. -/
theorem C100_nick (lib : UrlLib) (ircOk : Str → Bool) (st st' : NwState) (w : NwIds st) (id : Nat) (nick : Str) (ok : Bool)
    (old : NetRec) (ho : getNetworkByID st id = some old)
    (h : nwStep lib ircOk st (.setNick id nick ok) = (st', true)) :
    Replaced st st' old { old with nick := nick } := by
  simp only [nwStep] at h
  split at h
  · have := (congrArg Prod.fst h); subst this
    exact map_replaced (fun n => { n with nick := nick }) w (List.mem_of_find?_eq_some ho) (by simpa using List.find?_some ho) rfl
  · simp at h

/-- C100: new credentials change those of the network, and nothing else. -/
theorem C100_sasl (lib : UrlLib) (ircOk : Str → Bool) (st : NwState) (w : NwIds st) (id : Nat) (sasl : SaslRec)
    (old : NetRec) (ho : getNetworkByID st id = some old) :
    Replaced st (nwStep lib ircOk st (.setSasl id sasl)).1 old { old with sasl := sasl } :=
  map_replaced (fun n => { n with sasl := sasl }) w (List.mem_of_find?_eq_some ho) (by simpa using List.find?_some ho) rfl

/-- C100: SETNAME changes the realname that is used on the network, and nothing else: the nick that is used stays.  Only if the server
cannot be told of it: otherwise the realname is stored, but not used (C100_realname_violated). -/
theorem C100_realname_partial (lib : UrlLib) (ircOk : Str → Bool) (st st' : NwState) (w : NwIds st) (id : Nat) (realname : Str)
    (ok : Bool) (h : nwStep lib ircOk st (.setRealname id realname false ok) = (st', true)) :
    ∃ old new, old.id = id ∧ Replaced st st' old new ∧ FlagsDone st { realname := some realname } old new := by
  simp only [nwStep] at h
  have h := result_true h
  cases hn : getNetworkByID st id with
  | none => rw [hn] at h; cases h
  | some old =>
    rw [hn] at h
    dsimp only at h
    have hid : old.id = id := by simpa using List.find?_some hn
    have hrep := update_replaced w (List.mem_of_find?_eq_some hn) (by rfl) h
    refine ⟨old, _, hid, hrep, ?_⟩
    refine ⟨?_, ?_, ⟨_, rfl, ?_⟩, ?_, ⟨realname, rfl, ?_⟩, ?_, ?_, ?_, ?_, ?_, ?_⟩
    · rw [wiped_fields]; rfl
    · rw [wiped_fields]; rfl
    · rw [wiped_nick]; rfl
    · rw [wiped_fields]; rfl
    · rw [wiped_realname]; exact firstSet_wipe _ _ _
    · rw [wiped_fields]; rfl
    · rw [wiped_fields]; rfl
    · rw [wiped_fields]; rfl
    · rw [wiped_fields]; rfl
    · rw [wiped_fields]; rfl
    · rw [wiped_fields]

/-- C100: when the account is changed and its networks are connected again, no network changes: all that is used stays
what it would have been with the settings it had. -/
theorem C100_refresh (lib : UrlLib) (ircOk : Str → Bool) (st st' : NwState) (w : NwIds st) (id : Nat)
    (ok : Bool) (h : nwStep lib ircOk st (.refresh id ok) = (st', true)) :
    ∃ old new, old.id = id ∧ Replaced st st' old new ∧ FlagsDone st {} old new := by
  simp only [nwStep] at h
  have h := result_true h
  cases hn : getNetworkByID st id with
  | none => rw [hn] at h; cases h
  | some old =>
    rw [hn] at h
    dsimp only at h
    refine ⟨old, _, by simpa using List.find?_some hn, update_replaced w (List.mem_of_find?_eq_some hn) rfl h, ?_⟩
    exact raw_done_wiped ⟨rfl, rfl, rfl, rfl, rfl, rfl, rfl, rfl, rfl, rfl, rfl⟩

/-- C100: a deletion removes the network that is named, and nothing else. -/
theorem C100_delete (lib : UrlLib) (ircOk : Str → Bool) (st st' : NwState) (w : NwIds st) (op : NwOp) (old : NetRec)
    (ho : (∃ name cur, op = .svcDelete name cur true ∧ networkFromArg st name cur = some old) ∨
      (∃ id, op = .bncDelete id true ∧ getNetworkByID st id = some old))
    (h : nwStep lib ircOk st op = (st', true)) :
    SameAccount st st' ∧ ∀ m, m ∈ st'.networks ↔ m ∈ st.networks ∧ m.id ≠ old.id := by
  rcases ho with ⟨name, cur, rfl, hn⟩ | ⟨id, rfl, hn⟩ <;>
  · simp only [nwStep, hn] at h
    have h := result_true h
    simp only [deleteNetwork] at h
    have := Option.some.inj h; subst this
    exact ⟨⟨rfl, rfl, rfl, rfl, rfl, rfl⟩, fun m => mem_removeNetwork w.1 _ _⟩

/-- C100: SETNAME on a network whose server knows it succeeds, but the realname that is used for the next connection to the network is
still the old one. -/
theorem C100_realname_violated :
    let r := nwStep exUrlLib (fun _ => true) exSetUser (.setRealname 1 b!"Al" true true)
    r.2 = true ∧ (getNetworkByID r.1 1).map (realnameUsed r.1) ≠ some b!"Al" := by decide +kernel

/-- Each of these succeeds for the user of the examples. -/
example : NwIds exSetUser ∧
    (nwStep exUrlLib (fun _ => true) exSetUser (.setNick 1 b!"al" true)).2 = true ∧
    (nwStep exUrlLib (fun _ => true) exSetUser (.setRealname 1 b!"Al" false true)).2 = true ∧
    (nwStep exUrlLib (fun _ => true) exSetUser (.refresh 1 true)).2 = true ∧
    (nwStep exUrlLib (fun _ => true) exSetUser (.svcDelete b!"libera" none true)).2 = true ∧
    (networkFromArg exSetUser b!"libera" none).isSome = true := by
  refine ⟨⟨by decide, by decide⟩, by decide +kernel, by decide +kernel, by decide +kernel, by decide +kernel,
    by decide +kernel⟩

/-- The operation is about the network with this identifier. -/
def nwAbout (st : NwState) (id : Nat) : NwOp → Prop
  | .svcUpdate _ name cur _ _ => ∃ m, networkFromArg st name cur = some m ∧ m.id = id
  | .svcDelete name cur _ => ∃ m, networkFromArg st name cur = some m ∧ m.id = id
  | .bncChange i _ _ => i = id
  | .bncDelete i _ => i = id
  | .setNick i _ _ => i = id
  | .setRealname i _ _ _ => i = id
  | .setSasl i _ => i = id
  | .refresh i _ => i = id
  | _ => False

private theorem map_others {st : NwState} {id : Nat} {f : NetRec → NetRec} {n : NetRec} (hn : n ∈ st.networks)
    (h : id ≠ n.id) : n ∈ (mapNetwork st id f).networks := by
  simp only [mapNetwork, List.mem_map]
  exact ⟨n, hn, by rw [if_neg (fun e => h e.symm)]⟩

private theorem step_others {lib : UrlLib} {ircOk : Str → Bool} {st : NwState} (w : NwIds st) {op : NwOp} {n : NetRec}
    (hn : n ∈ st.networks) (ha : ¬ nwAbout st n.id op) : n ∈ (nwStep lib ircOk st op).1.networks := by
  cases hs : (nwStep lib ircOk st op).2 with
  | false => rw [C31_refused lib ircOk st op hs]; exact hn
  | true =>
    have he : nwStep lib ircOk st op = ((nwStep lib ircOk st op).1, true) := by rw [← hs]
    generalize (nwStep lib ircOk st op).1 = st' at he ⊢
    cases op with
    | svcCreate admin fs db =>
      obtain ⟨_, _, _, h, _⟩ := C100_create _ _ _ _ _ _ _ he
      exact (h.2.2 n).2 (.inr hn)
    | svcUpdate admin name cur fs ok =>
      obtain ⟨old, _, h1, h, _⟩ := C100_update _ _ _ _ w _ _ _ _ _ he
      exact (h.2.2.2 n).2 (.inr ⟨hn, fun e => ha ⟨old, h1, e.symm⟩⟩)
    | svcDelete name cur ok =>
      cases hf : networkFromArg st name cur with
      | none => simp [nwStep, hf, nwResult] at he
      | some old =>
        cases ok with
        | false => simp [nwStep, hf, nwResult, deleteNetwork] at he
        | true =>
          exact ((C100_delete _ _ _ _ w _ old (.inl ⟨_, _, rfl, hf⟩) he).2 n).2 ⟨hn, fun e => ha ⟨old, hf, e.symm⟩⟩
    | bncAdd nick a db =>
      obtain ⟨_, h, _⟩ := C100_bouncer_add_partial _ _ _ _ _ _ _ he
      exact (h.2.2 n).2 (.inr hn)
    | bncChange i a ok =>
      obtain ⟨old, _, h1, h, _⟩ := C100_bouncer_change_partial _ _ _ _ w _ _ _ he
      exact (h.2.2.2 n).2 (.inr ⟨hn, fun e => ha (h1.symm.trans e.symm)⟩)
    | bncDelete i ok =>
      cases hf : getNetworkByID st i with
      | none => simp [nwStep, hf, nwResult] at he
      | some old =>
        cases ok with
        | false => simp [nwStep, hf, nwResult, deleteNetwork] at he
        | true =>
          have hid : old.id = i := by simpa using List.find?_some hf
          exact ((C100_delete _ _ _ _ w _ old (.inr ⟨_, rfl, hf⟩) he).2 n).2
            ⟨hn, fun e => ha (hid.symm.trans e.symm)⟩
    | login name nick r db =>
      rcases C100_login _ _ _ _ _ _ _ _ he with h | ⟨_, _, _, h⟩
      · rw [h]; exact hn
      · exact (h.2.2 n).2 (.inr hn)
    | setNick i nick ok =>
      simp only [nwStep] at he
      split at he
      · have := congrArg Prod.fst he; subst this; exact map_others hn ha
      · simp at he
    | setRealname i r capable ok =>
      cases capable with
      | true =>
        simp only [nwStep] at he
        have := congrArg Prod.fst he
        simp only [if_true] at this
        subst this; exact hn
      | false =>
      obtain ⟨old, _, h1, h, _⟩ := C100_realname_partial _ _ _ _ w _ _ _ he
      exact (h.2.2.2 n).2 (.inr ⟨hn, fun e => ha (h1.symm.trans e.symm)⟩)
    | setSasl i s =>
      simp only [nwStep] at he
      have := congrArg Prod.fst he; subst this; exact map_others hn ha
    | setUser a b c d =>
      simp only [nwStep] at he
      have := congrArg Prod.fst he; subst this; exact hn
    | refresh i ok =>
      obtain ⟨old, _, h1, h, _⟩ := C100_refresh _ _ _ _ w _ _ he
      exact (h.2.2.2 n).2 (.inr ⟨hn, fun e => ha (h1.symm.trans e.symm)⟩)
    | setCfgMax m =>
      simp only [nwStep] at he
      have := congrArg Prod.fst he; subst this; exact hn

/-- C100: over every history, a network keeps all its settings as long as nothing is done about it. -/
theorem C100_kept (lib : UrlLib) (ircOk : Str → Bool) (st : NwState) (ops : List NwOp) (w : NwIds st) (n : NetRec)
    (hn : n ∈ st.networks)
    (ha : ∀ pre op suf, ops = pre ++ op :: suf → ¬ nwAbout (nwRun lib ircOk st pre) n.id op) :
    n ∈ (nwRun lib ircOk st ops).networks := by
  induction ops using snocInd with
  | nil => exact hn
  | snoc ops op ih =>
    have h1 := ih (fun pre o suf e => ha pre o (suf ++ [op]) (by simp [e]))
    have h2 := step_others (lib := lib) (ircOk := ircOk) (nwRun_ids ops w) h1 (ha ops op [] rfl)
    simpa [nwRun, List.foldl_append] using h2

/-- The other network is renamed and deleted. -/
example :
    let ops : List NwOp := [.svcUpdate false b!"libera" none { name := some b!"l" } true, .bncDelete 1 true]
    ∀ pre op suf, ops = pre ++ op :: suf → ¬ nwAbout (nwRun exUrlLib (fun _ => true) exSetUser pre) 2 op := by
  intro ops pre op suf h
  match pre, h with
  | [], h =>
    simp only [ops, List.nil_append, List.cons.injEq] at h
    rw [← h.1]
    rintro ⟨m, h1, h2⟩
    have h3 : networkFromArg (nwRun exUrlLib (fun _ => true) exSetUser []) b!"libera" none =
      some (exSetUser.networks.head (by decide)) := by decide +kernel
    rw [h3] at h1
    have := Option.some.inj h1
    subst this
    exact absurd h2 (by decide)
  | [x], h =>
    simp only [ops, List.cons_append, List.nil_append, List.cons.injEq] at h
    rw [← h.2.1]
    simp [nwAbout]
  | x :: y :: z, h => simp [ops] at h

end Verif.Props
