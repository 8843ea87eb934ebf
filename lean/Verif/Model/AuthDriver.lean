import Verif.Model.GoMap
import Verif.Model.Base64
import Verif.Model.Config
import Verif.Model.Register

/-! # Model of the authenticators

auth/internal.go, auth/http.go, auth/oauth2.go, auth/pam.go and the passwords of database/database.go:109-138. bcrypt,
PAM and the servers asked over HTTP are parameters. -/

namespace Verif.Model

/-! ## Passwords -/

/-- `golang.org/x/crypto/bcrypt`: `CompareHashAndPassword`, `Cost` and `GenerateFromPassword` with the default cost (the
first argument stands for the salt). -/
structure BcryptLib where
  compare : Str → Str → Bool
  cost : Str → Option Nat
  gen : Nat → Str → Option Str

/-- database/database.go:89-100: `User`, a row of the database. `rest` stands for the other fields. -/
structure AcctRow where
  id : Nat
  password : Str
  admin : Bool
  enabled : Bool
  rest : Str
deriving DecidableEq, Repr

/-- `bcrypt.DefaultCost`. -/
def bcryptDefaultCost : Nat := 10

/-- database/database.go:131-138 — `SetPassword`. -/
def setPassword (lib : BcryptLib) (salt : Nat) (u : AcctRow) (password : Str) : Option AcctRow :=
  (lib.gen salt password).map fun h => { u with password := h }

/-- database/database.go:110-129 — `CheckPassword`: whether the record has been upgraded, and the record; `none` is an
error. -/
def checkPassword (lib : BcryptLib) (salt : Nat) (u : AcctRow) (password : Str) : Option (Bool × AcctRow) :=
  if u.password = [] then none
  else if lib.compare u.password password then
    match lib.cost u.password with
    | none => none
    | some c =>
      if c < bcryptDefaultCost then (setPassword lib salt u password).map (true, ·)
      else some (false, u)
  else none

/-- The result of an authenticator, and what the client is told (auth/auth.go:55-77, downstream.go:73-79): it is
accepted, its credentials are invalid, or something else went wrong. -/
inductive AuthRes
  | ok
  | invalid
  | failed
deriving DecidableEq, Repr

/-- auth/internal.go:18-36 — `AuthPlain`, when nothing happens meanwhile: the result and the row to store, if any.
`storeOk` is whether the database takes it. -/
def internalAuth (lib : BcryptLib) (salt : Nat) (storeOk : Bool) (row : Option AcctRow) (password : Str) :
    AuthRes × Option AcctRow :=
  match row with
  | none => (.invalid, none)
  | some u =>
    match checkPassword lib salt u password with
    | none => (.invalid, none)
    | some (false, _) => (.ok, none)
    | some (true, u') => if storeOk then (.ok, some u') else (.failed, none)

/-! ## The same, with everything else that happens to an account -/

/-- How far a login has come. -/
inductive LoginPhase
  | read (row : AcctRow) (password : Str)
  | upgrade (row : AcctRow)
  | done (ok : Bool)
deriving DecidableEq, Repr

/-- An account: its row in the database, the record the loop of the user has in memory, and the logins going on. -/
structure AcctState where
  db : Option AcctRow
  mem : Option AcctRow
  logins : GoMap Nat LoginPhase
deriving Repr

/-- What can happen. The steps of a login (auth/internal.go:19, 24, 30) can be apart: it runs in the goroutine of the
connection. -/
inductive AcctOp
  | begin (k : Nat) (password : Str)
  | check (k : Nat) (salt : Nat)
  | store (k : Nat) (ok : Bool)
  | update (record : AcctRow) (ok : Bool)
  | create (record : AcctRow)
  | delete
deriving Repr

/-- `StoreUser` of an existing user (database/sqlite.go:446-453): the row with this name, if there is one. -/
def storeAcct (db : Option AcctRow) (u : AcctRow) : Option AcctRow := db.map fun row => { u with id := row.id }

/-- The next state. `update`: user.go:1192-1204, `updateUser` with any change; `create` and `delete`: server.go:403-417
and user.go:1262-1301. A login that is not there, and an account that is, are ignored. -/
def acctStep (lib : BcryptLib) (st : AcctState) : AcctOp → AcctState
  | .begin k password =>
    match st.db with
    | none => { st with logins := GoMap.set st.logins k (.done false) }
    | some row => { st with logins := GoMap.set st.logins k (.read row password) }
  | .check k salt =>
    match GoMap.get st.logins k with
    | some (.read row password) =>
      match checkPassword lib salt row password with
      | none => { st with logins := GoMap.set st.logins k (.done false) }
      | some (false, _) => { st with logins := GoMap.set st.logins k (.done true) }
      | some (true, row') => { st with logins := GoMap.set st.logins k (.upgrade row') }
    | _ => st
  | .store k ok =>
    match GoMap.get st.logins k with
    | some (.upgrade row) =>
      if ok then { st with db := storeAcct st.db row, logins := GoMap.set st.logins k (.done true) }
      else { st with logins := GoMap.set st.logins k (.done false) }
    | _ => st
  | .update record ok =>
    match st.mem with
    | none => st
    | some cur =>
      if ok then { st with db := storeAcct st.db { record with id := cur.id }, mem := some { record with id := cur.id } }
      else st
  | .create record =>
    match st.mem with
    | none => { st with db := some record, mem := some record }
    | some _ => st
  | .delete => { st with db := none, mem := none }

/-- A history. -/
def acctRun (lib : BcryptLib) (st : AcctState) (ops : List AcctOp) : AcctState := ops.foldl (acctStep lib) st

/-! ## HTTP -/

/-- A request: its method, address, `Authorization` header and body. -/
structure AuthReq where
  method : Str
  url : Str
  authorization : Option Str
  body : Str
deriving DecidableEq, Repr

/-- net/http `SetBasicAuth`. -/
def basicAuth (username password : Str) : Str :=
  b!"Basic " ++ Base64.encode .std (username ++ b!":" ++ password)

/-- auth/http.go:29-33 — the request. -/
def httpAuthReq (url username password : Str) : AuthReq := ⟨b!"POST", url, some (basicAuth username password), []⟩

/-- auth/http.go:28-48 — `AuthPlain`; `ask` sends a request and gives the status, `none` is an error. -/
def httpAuth (ask : AuthReq → Option Nat) (url username password : Str) : AuthRes :=
  match ask (httpAuthReq url username password) with
  | none => .failed
  | some status => if status = 403 then .invalid else if status ≠ 200 then .failed else .ok

/-! ## OAuth 2.0 -/

/-- An upper-case hexadecimal digit. -/
def formHex (n : Nat) : Byte := if n < 10 then 48 + n else 55 + n

/-- net/url `shouldEscape` in query components. -/
def queryKeeps (c : Byte) : Bool :=
  decide ((97 ≤ c ∧ c ≤ 122) ∨ (65 ≤ c ∧ c ≤ 90) ∨ (48 ≤ c ∧ c ≤ 57) ∨ c = 45 ∨ c = 95 ∨ c = 46 ∨ c = 126)

/-- net/url `QueryEscape`. -/
def queryEscape : Str → Str
  | [] => []
  | c :: s =>
    (if c = 32 then [43] else if queryKeeps c then [c] else [37, formHex (c / 16), formHex (c % 16)]) ++ queryEscape s

/-- auth/oauth2.go:16-20 — `oauth2`. -/
structure OauthConf where
  introspectionURL : Str
  clientID : Str
  clientSecret : Str
deriving DecidableEq, Repr

/-- auth/oauth2.go:129-132 — `oauth2Introspection`. -/
structure Introspection where
  active : Bool
  username : Str
deriving DecidableEq, Repr

/-- The result for a token. -/
inductive TokenRes
  | user (username : Str)
  | invalid
  | failed
deriving DecidableEq, Repr

/-- auth/oauth2.go:86-100 — the request (`url.Values.Encode` of a single value). -/
def introspectReq (conf : OauthConf) (token : Str) : AuthReq :=
  ⟨b!"POST", conf.introspectionURL,
   if conf.clientID ≠ [] then some (basicAuth (queryEscape conf.clientID) (queryEscape conf.clientSecret)) else none,
   b!"token=" ++ queryEscape token⟩

/-- auth/oauth2.go:85-127 — `AuthOAuthBearer`; `ask` gives the status and the decoded answer, if it can be decoded. -/
def oauthBearer (conf : OauthConf) (ask : AuthReq → Option (Nat × Option Introspection)) (token : Str) : TokenRes :=
  match ask (introspectReq conf token) with
  | none => .failed
  | some (status, data) =>
    if status ≠ 200 then .failed
    else match data with
      | none => .failed
      | some data =>
        if !data.active then .invalid
        else if data.username = [] then .failed
        else .user data.username

/-- As `AuthEnv` has it. -/
def TokenRes.toOption : TokenRes → Option Str
  | .user u => some u
  | _ => none

/-- auth/oauth2.go:134-138 — `oauth2Server`, as discovered. -/
structure OauthServer where
  issuer : Str
  introspection : Str
  methods : Option (List Str)
deriving DecidableEq, Repr

/-- auth/oauth2.go:26-83, 146-172 — `newOAuth2`, after the discovery request: whether the configuration is accepted. -/
def oauthNew (clientID : Str) (server : OauthServer) : Bool :=
  if server.issuer = [] then false
  else if server.introspection = [] then false
  else match server.methods with
    | none => true
    | some ms =>
      if clientID = [] ∧ ¬ b!"none" ∈ ms then false
      else if clientID ≠ [] ∧ ¬ b!"client_secret_basic" ∈ ms then false
      else true

/-! ## PAM -/

/-- What PAM can ask for. -/
inductive PamStyle
  | echoOff | echoOn | errorMsg | textInfo | other
deriving DecidableEq, Repr

/-- A PAM conversation: the results of `Authenticate` (given the function that answers its questions), `AcctMgmt`,
`GetItem(User)` and `End`. -/
structure PamSession where
  authenticate : (PamStyle → Option Str) → Bool
  acctMgmt : Bool
  user : Option Str
  endOk : Bool

/-- auth/pam.go:27-36 — the answers. -/
def pamAnswer (password : Str) : PamStyle → Option Str
  | .echoOff => some password
  | .echoOn => some []
  | .errorMsg => some []
  | .textInfo => some []
  | .other => none

/-- auth/pam.go:26-61 — `AuthPlain`. -/
def pamAuth (start : Str → Option PamSession) (username password : Str) : AuthRes :=
  match start username with
  | none => .failed
  | some s =>
    if !s.authenticate (pamAnswer password) then .invalid
    else if !s.acctMgmt then .failed
    else if s.user ≠ some username then .failed
    else if !s.endOk then .failed
    else .ok

end Verif.Model
