import Verif.Model.ZncImport

/-! # What the import of a ZNC configuration must do (C90)

Stated by names: what the database answers for a user, for a network of a user and for a channel of a network. -/

namespace Verif.Spec
open Verif.Model

/-- The user with this name. -/
def bookUser (db : SqDb) (user : Str) : Option PdUserRec :=
  ((sqListUsers db).getD []).find? (fun u => decide (u.username = user))

/-- The network with this name of this user. -/
def bookNet (db : SqDb) (user net : Str) : Option NetRec :=
  (bookUser db user).bind (fun u => (sqListNetworks db u.id).find? (fun n => decide (n.getName = net)))

/-- The channel with this name on this network of this user. -/
def bookChan (db : SqDb) (user net chan : Str) : Option ChanRec :=
  (bookNet db user net).bind (fun n => (sqListChannels db n.id).find? (fun c => decide (c.name = chan)))

/-- The same records apart from the identifiers, which stay if there was a record before. -/
def Merged {α : Type} (id : α → Nat) (withId : α → Nat → α) (before : Option α) (new : α) (after : Option α) : Prop :=
  ∃ i, after = some (withId new i) ∧ ∀ old, before = some old → i = id old

/-- The user after the import of their section: an administrator or not as in the section, otherwise as before or
with default settings. -/
def UserMerged (s : ZncSection) (before after : Option PdUserRec) : Prop :=
  Merged (·.id) (fun r i => { r with id := i }) before
    { (before.getD { username := s.name }) with admin := decide (zncGet s.values b!"Admin" = b!"true") } after

/-- The network after the import of its section: address, password, names and whether it is enabled as in the section
or in the section of the user, otherwise as before or with default settings. -/
def NetMerged (esc : Str → Str) (user s : ZncSection) (before after : Option NetRec) : Prop :=
  ∃ addr pass, zncServer esc (zncGet s.values b!"Server") = some (addr, pass) ∧
    let here := fun key => if zncGet s.values key = [] then zncGet user.values key else zncGet s.values key
    Merged (·.id) (fun r i => { r with id := i }) before
      { (before.getD { name := s.name, addr := [] }) with
        addr := addr, pass := pass, nick := here b!"Nick", username := here b!"Ident", realname := here b!"RealName",
        enabled := decide (zncGet s.values b!"IRCConnectEnabled" ≠ b!"false") } after

/-- The channel after the import of its section: key and whether it is detached as in the section, otherwise as before
or with default settings. -/
def ChanMerged (s : ZncSection) (before after : Option ChanRec) : Prop :=
  Merged (·.id) (fun r i => { r with id := i }) before
    { (before.getD { id := 0, name := s.name, key := [], detached := false, detachedMsgID := [], relayDetached := 0,
                     reattachOn := 0, detachAfter := 0, detachOn := 0 }) with
      key := zncGet s.values b!"Key", detached := decide (zncGet s.values b!"Detached" = b!"true") } after

/-- The sections of the users that are chosen. -/
def UserSection (onlyUser : Str → Bool) (root s : ZncSection) : Prop := s ∈ zncEach root b!"User" ∧ onlyUser s.name = true

/-- The sections of the networks that are chosen, in the section of a user. -/
def NetSection (onlyNet : Str → Bool) (s t : ZncSection) : Prop := t ∈ zncEach s b!"Network" ∧ onlyNet t.name = true

/-- The sections of the channels that are not disabled, in the section of a network. -/
def ChanSection (t c : ZncSection) : Prop := c ∈ zncEach t b!"Chan" ∧ zncGet c.values b!"Disabled" ≠ b!"true"

/-- A configuration in which no two sections are about the same user, network or channel, and whose networks have a name.
A network of the database with the same name must have been given this name: the name of a network without one is its
address. -/
structure Importable (onlyUser onlyNet : Str → Bool) (root : ZncSection) (db : SqDb) : Prop where
  users : ((zncEach root b!"User").map (·.name)).Nodup
  networks : ∀ s, UserSection onlyUser root s → ((zncEach s b!"Network").map (·.name)).Nodup
  channels : ∀ s t, UserSection onlyUser root s → NetSection onlyNet s t → ((zncEach t b!"Chan").map (·.name)).Nodup
  name : ∀ s t, UserSection onlyUser root s → NetSection onlyNet s t → t.name ≠ []
  named : ∀ s t, UserSection onlyUser root s → NetSection onlyNet s t →
    ∀ n, bookNet db s.name t.name = some n → n.name ≠ []

end Verif.Spec
