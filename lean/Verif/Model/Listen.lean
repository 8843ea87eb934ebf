import Verif.Model.Config
import Verif.Model.Url

/-! # Model of the listeners and of the reloading of the configuration (cmd/soju/main.go) -/

namespace Verif.Model

/-- What is served to those who connect. -/
inductive LService
  /-- IRC clients: `srv.Handle` -/
  | irc
  /-- `srv.HandleAdmin`: service commands with the rights of an administrator -/
  | admin
  /-- `httpMux`: WebSocket and uploads -/
  | http
  /-- `srv`: WebSocket -/
  | ws
  | ident
  | metrics
  | pprof
deriving DecidableEq, Repr

/-- Where a listener waits: a TCP address or the path of a Unix domain socket. -/
inductive LAddr
  | tcp (addr : Str)
  | unix (path : Str)
deriving DecidableEq, Repr

/-- A listener: what it serves, where, whether with TLS, and the file whose permissions are set, with these
permissions. -/
structure Listener where
  service : LService
  addr : LAddr
  tls : Bool
  chmod : Option (Str × Nat)
deriving DecidableEq, Repr

/-- net/url (library) `validOptionalPort`. -/
def validOptionalPort (s : Str) : Bool :=
  match s with
  | [] => true
  | c :: s => decide (c = 58) && s.all isDigit

/-- net/url (library) `stripPort`, `splitHostPort` — without the last colon and what follows if these are digits. -/
def stripOptionalPort (host : Str) : Str :=
  match cutLast 58 host with
  | some (a, b) => if validOptionalPort (58 :: b) then a else host
  | none => host

/-- net/url (library) `splitHostPort` — without the square brackets. -/
def stripBrackets (h : Str) : Str :=
  if hasPrefix b!"[" h && hasSuffix b!"]" h then h.tail.dropLast else h

/-- net/url (library) `URL.Hostname`. -/
def urlHostname (host : Str) : Str :=
  stripBrackets (stripOptionalPort host)

/-- cmd/soju/main.go:485-490 — `withDefaultPort`. -/
def withDefaultPort (addr port : Str) : Str :=
  match splitHostPort addr with
  | none => addr ++ b!":" ++ port
  | some _ => addr

/-- config/config.go:16 — `DefaultUnixAdminPath`, `/run/soju/admin` if not changed when building. -/
def defaultUnixAdminPath : Str := b!"/run/soju/admin"

/-- cmd/soju/main.go:196-202 — a raw host name is made a URL without scheme. -/
def listenUri (listen : Str) : Str :=
  match cutStr b!":/" listen with
  | none => b!"//" ++ listen
  | some _ => listen

/-- cmd/soju/main.go:338-388 — metrics and profiles, for `localhost` with a port only. -/
def listenDebug (service : LService) (host : Str) : Option Listener :=
  match splitHostPort host with
  | none => none
  | some (hostname, _) => if hostname ≠ b!"localhost" then none else some ⟨service, .tcp host, false, none⟩

/-- cmd/soju/main.go:194-431 — one listen directive; `none` means that the bouncer does not start. Simplification: that the
address is in use and other errors of the system are left out, except that permissions can be set. -/
def listenOn (lib : UrlLib) (tls : Bool) (listen : Str) : Option Listener :=
  match urlParse lib (listenUri listen) with
  | none => none
  | some u =>
    if u.scheme = b!"ircs" ∨ u.scheme = [] then
      if tls = false then none
      else some ⟨.irc, .tcp (withDefaultPort u.host b!"6697"), true, none⟩
    else if u.scheme = b!"irc" then
      if urlHostname u.host ≠ b!"localhost" then none
      else some ⟨.irc, .tcp (withDefaultPort u.host b!"6667"), false, none⟩
    else if u.scheme = b!"irc+insecure" then
      some ⟨.irc, .tcp (withDefaultPort u.host b!"6667"), false, none⟩
    else if u.scheme = b!"unix" then
      some ⟨.irc, .unix (u.host ++ u.path), false, some (u.path, 0o775)⟩
    else if u.scheme = b!"unix+admin" then
      let path := u.host ++ u.path
      let path := if path = [] then defaultUnixAdminPath else path
      some ⟨.admin, .unix path, false, some (path, 0o600)⟩
    else if u.scheme = b!"wss" then
      if tls = false then none
      else some ⟨.ws, .tcp (withDefaultPort u.host b!"https"), true, none⟩
    else if u.scheme = b!"ws" then
      if urlHostname u.host ≠ b!"localhost" then none
      else some ⟨.ws, .tcp (withDefaultPort u.host b!"http"), false, none⟩
    else if u.scheme = b!"ws+insecure" then
      some ⟨.ws, .tcp (withDefaultPort u.host b!"http"), false, none⟩
    else if u.scheme = b!"ws+unix" then
      some ⟨.ws, .unix u.path, false, some (u.path, 0o775)⟩
    else if u.scheme = b!"ident" then
      some ⟨.ident, .tcp (withDefaultPort u.host b!"113"), false, none⟩
    else if u.scheme = b!"http+prometheus" then
      listenDebug .metrics u.host
    else if u.scheme = b!"http+pprof" then
      listenDebug .pprof u.host
    else if u.scheme = b!"https" then
      if tls = false then none
      else some ⟨.http, .tcp (withDefaultPort u.host b!"https"), true, none⟩
    else if u.scheme = b!"http" then
      if urlHostname u.host ≠ b!"localhost" then none
      else some ⟨.http, .tcp (withDefaultPort u.host b!"http"), false, none⟩
    else if u.scheme = b!"http+insecure" then
      some ⟨.http, .tcp (withDefaultPort u.host b!"http"), false, none⟩
    else if u.scheme = b!"http+unix" then
      some ⟨.http, .unix u.path, false, some (u.path, 0o775)⟩
    else none

/-- cmd/soju/main.go:153-156 — the directives: those of the file, then those of the command line. -/
def listenAll (c : ServerConfig) (args : List Str) : List Str :=
  let l := c.listen ++ args
  if l = [] then [b!":6697"] else l

/-- cmd/soju/main.go:163-170, 194-431 — all listeners; `none` means that the bouncer does not start. -/
def startListeners (lib : UrlLib) (c : ServerConfig) (args : List Str) : Option (List Listener) :=
  mapAll (listenOn lib c.tls.isSome) (listenAll c args)

/-- server.go:145-160 — `Config`, what the server works with; the authenticators are known by their drivers. -/
structure SojuConfig where
  hostname : Str
  title : Str
  msgStore : Str × Str
  httpOrigins : List Str
  httpIngress : Str
  acceptProxyIps : List IpNet
  maxUserNetworks : Int
  upstreamUserIps : List IpNet
  disableInactiveUsersDelay : Int
  enableUsersOnAuth : Bool
  motd : Str
  auth : List (Str × Str)
  fileUploader : Option (Str × Str)
deriving DecidableEq, Repr

/-- What the file system and the libraries answer while the configuration is loaded: the decoded file (`none` if it cannot be
read or decoded), the contents of files, whether the authenticators can be created and combined, and the certificate
of a pair of files. -/
structure LoadEnv where
  lib : ConfigLib
  raw : Option RawConfig
  readFile : Str → Option Str
  auth : List (Str × Str) → Bool
  keyPair : Str × Str → Option Str

/-- What `loadConfig` and the signal handler change: the configuration of the server and the certificate of
the TLS listeners (cmd/soju/main.go:51). -/
structure Loaded where
  cfg : SojuConfig
  cert : Option Str
deriving DecidableEq, Repr

/-- fileupload/fileupload.go:90-99 — `New`. -/
def newUploader (ds : Str × Str) : Option (Str × Str) :=
  if ds.1 = b!"fs" ∨ ds.1 = b!"http" then some ds else none

/-- cmd/soju/main.go:108-117 — the uploader of the file, if any. -/
def uploaderOf : Option (Str × Str) → Option (Option (Str × Str))
  | none => some none
  | some ds => (newUploader ds).map some

/-- cmd/soju/main.go:54-139 — `loadConfig` with a config file: the result, and the certificate afterwards. The
hostname without a dot is only warned about. -/
def loadServer (env : LoadEnv) (cert : Option Str) : Option (ServerConfig × SojuConfig) × Option Str :=
  match env.raw.bind (Model.loadConfig env.lib) with
  | none => (none, cert)
  | some raw =>
    match (if raw.motdPath ≠ [] then env.readFile raw.motdPath else some []) with
    | none => (none, cert)
    | some motd =>
      if env.auth raw.auth = false then (none, cert)
      else
        match (match raw.tls with
          | none => some cert
          | some p => (env.keyPair p).map some) with
        | none => (none, cert)
        | some cert =>
          match uploaderOf raw.fileUpload with
          | none => (none, cert)
          | some up =>
            (some (raw, ⟨raw.hostname, raw.title, raw.msgStore, raw.httpOrigins, raw.httpIngress, raw.acceptProxyIps,
              raw.maxUserNetworks, raw.upstreamUserIps, raw.disableInactiveUsersDelay, raw.enableUsersOnAuth,
              trimSuffix b!"\n" motd, raw.auth, up⟩), cert)

/-- cmd/soju/main.go:448-456 — SIGHUP. -/
def reload (st : Loaded) (env : LoadEnv) : Loaded :=
  match loadServer env st.cert with
  | (none, cert) => { st with cert := cert }
  | (some (_, cfg), cert) => ⟨cfg, cert⟩

end Verif.Model
