import Verif.Model.ZncConf
import Verif.Model.SqDb

/-! # Model of the import of a ZNC configuration into the database

contrib/znc-import/main.go:85-228, on an SQLite database (`Model.SqDb`).  What is printed is left out.  The maps of
existing records are built once, before anything is stored: a record changed during the import keeps its identifier,
and the fields that the import sets are set again each time. -/

namespace Verif.Model

/-- contrib/znc-import/main.go:89-92, 125-128, 197-200 — the map from names to records: the last one with the name. -/
def zncLookup {α : Type} (name : α → Str) (l : List α) (n : Str) : Option α :=
  l.reverse.find? (fun x => decide (name x = n))

/-- contrib/znc-import/main.go:212-221 — the record of a channel before it is stored. -/
def zncChanRec (existing : List ChanRec) (s : ZncSection) : ChanRec :=
  { (zncLookup (·.name) existing s.name).getD ⟨0, s.name, [], false, [], 0, 0, 0, 0⟩ with
    key := zncGet s.values b!"Key", detached := decide (zncGet s.values b!"Detached" = b!"true") }

/-- contrib/znc-import/main.go:202-226 — the channels; an error is only printed. -/
def zncChannels (network : Nat) (existing : List ChanRec) : List ZncSection → SqDb → SqDb
  | [], db => db
  | s :: l, db =>
    if zncGet s.values b!"Disabled" = b!"true" then zncChannels network existing l db
    else zncChannels network existing l (sqStoreChannel db network (zncChanRec existing s)).1

/-- contrib/znc-import/main.go:144-155 — a setting of the network, or else of the user. -/
def zncSetting (user : ZncSection) (s : ZncSection) (key : Str) : Str :=
  if zncGet s.values key = [] then zncGet user.values key else zncGet s.values key

/-- contrib/znc-import/main.go:173-187 — the record of a network before it is stored. -/
def zncNetRec (existing : List NetRec) (user s : ZncSection) (addr pass : Str) : NetRec :=
  { (zncLookup NetRec.getName existing s.name).getD { name := s.name, addr := [] } with
    addr := addr, nick := zncSetting user s b!"Nick", username := zncSetting user s b!"Ident",
    realname := zncSetting user s b!"RealName", pass := pass,
    enabled := decide (zncGet s.values b!"IRCConnectEnabled" ≠ b!"false") }

/-- contrib/znc-import/main.go:134-227 — the networks of a user; `false` if the program ends with an error. -/
def zncNetworks (esc : Str → Str) (only : Str → Bool) (user : ZncSection) (id : Nat) (existing : List NetRec) :
    List ZncSection → SqDb → SqDb × Bool
  | [], db => (db, true)
  | s :: l, db =>
    if only s.name then
      match zncServer esc (zncGet s.values b!"Server") with
      | none => (db, false)
      | some (addr, pass) =>
        match sqStoreNetwork db id (zncNetRec existing user s addr pass) with
        | (db, none) => (db, false)
        | (db, some net) =>
          zncNetworks esc only user id existing l (zncChannels net (sqListChannels db net) (zncEach s b!"Chan") db)
    else zncNetworks esc only user id existing l db

/-- contrib/znc-import/main.go:105-114 — the record of a user before it is stored. -/
def zncUserRec (existing : List PdUserRec) (s : ZncSection) : PdUserRec :=
  { (zncLookup (·.username) existing s.name).getD { username := s.name } with
    admin := decide (zncGet s.values b!"Admin" = b!"true") }

/-- contrib/znc-import/main.go:98-228 — the users. -/
def zncUsers (esc : Str → Str) (onlyUser onlyNet : Str → Bool) (now : Int) (existing : List PdUserRec) :
    List ZncSection → SqDb → SqDb × Bool
  | [], db => (db, true)
  | s :: l, db =>
    if onlyUser s.name then
      match sqStoreUser db now (zncUserRec existing s) with
      | (db, none) => (db, false)
      | (db, some id) =>
        match zncNetworks esc onlyNet s id (sqListNetworks db id) (zncEach s b!"Network") db with
        | (db, false) => (db, false)
        | (db, true) => zncUsers esc onlyUser onlyNet now existing l db
    else zncUsers esc onlyUser onlyNet now existing l db

/-- contrib/znc-import/main.go:85-228, after the file has been read; `false` if the program ends with an error.
`onlyUser` and `onlyNet` tell the users and networks chosen by the options, all if there are none. -/
def zncImport (esc : Str → Str) (onlyUser onlyNet : Str → Bool) (now : Int) (root : ZncSection) (db : SqDb) : SqDb × Bool :=
  match sqListUsers db with
  | none => (db, false)
  | some existing => zncUsers esc onlyUser onlyNet now existing (zncEach root b!"User") db

/-- contrib/znc-import/main.go:100, 136 — whether a name is chosen by the options of this kind. -/
def zncChosen (options : List Str) (name : Str) : Bool := decide (options = []) || decide (name ∈ options)

end Verif.Model
