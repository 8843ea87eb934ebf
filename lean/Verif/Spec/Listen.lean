import Verif.Model.Listen

/-! The listening addresses as documented (doc/soju.1.scd), and what a configuration file means. -/

namespace Verif.Spec
open Verif.Model

/-- The schemes for TCP: what they serve, whether with TLS, and the port if none is given. -/
def tcpSchemes : List (Str × LService × Bool × Str) :=
  [(b!"ircs", .irc, true, b!"6697"), (b!"irc+insecure", .irc, false, b!"6667"),
   (b!"https", .http, true, b!"https"), (b!"http+insecure", .http, false, b!"http"),
   (b!"wss", .ws, true, b!"https"), (b!"ws+insecure", .ws, false, b!"http"), (b!"ident", .ident, false, b!"113")]

/-- The schemes for which the host must be `localhost`: what they serve and the port if none is given. -/
def localSchemes : List (Str × LService × Option Str) :=
  [(b!"irc", .irc, some b!"6667"), (b!"http", .http, some b!"http"), (b!"ws", .ws, some b!"http"),
   (b!"http+prometheus", .metrics, none), (b!"http+pprof", .pprof, none)]

/-- The schemes for Unix domain sockets: what they serve, and the permissions. -/
def unixSchemes : List (Str × LService × Nat) :=
  [(b!"unix", .irc, 0o775), (b!"http+unix", .http, 0o775), (b!"ws+unix", .ws, 0o775), (b!"unix+admin", .admin, 0o600)]

/-- A character that means nothing special in a URL. -/
def UriChar (c : Byte) : Prop := 32 < c ∧ c ≠ 127 ∧ c ≠ 47 ∧ c ≠ 63 ∧ c ≠ 35 ∧ c ≠ 64 ∧ c ≠ 37

/-- A host as it is written in an address: empty, a name, an IPv4 address, or an IPv6 address in
brackets. -/
def ListenHost (h : Str) : Prop :=
  (∀ c ∈ h, UriChar c ∧ c ≠ 58 ∧ c ≠ 91 ∧ c ≠ 93) ∨
  ∃ t, h = b!"[" ++ t ++ b!"]" ∧ ∀ c ∈ t, UriChar c ∧ c ≠ 91 ∧ c ≠ 93

/-- A port number. -/
def PortText (p : Str) : Prop := p ≠ [] ∧ ∀ c ∈ p, 48 ≤ c ∧ c ≤ 57

/-- An absolute path without characters that mean something in a URL. -/
def AbsPath (p : Str) : Prop := ∃ t, p = b!"/" ++ t ∧ ∀ c ∈ t, UriChar c ∨ c = 47

/-- What a configuration file says, with the contents of the files it names. -/
def FileMeans (env : LoadEnv) (cfg : SojuConfig) (cert : Option Str) : Prop :=
  ∃ raw c, env.raw = some raw ∧ Model.loadConfig env.lib raw = some c ∧
    cfg.hostname = c.hostname ∧ cfg.title = c.title ∧ cfg.msgStore = c.msgStore ∧ cfg.httpOrigins = c.httpOrigins ∧
    cfg.httpIngress = c.httpIngress ∧ cfg.acceptProxyIps = c.acceptProxyIps ∧
    cfg.maxUserNetworks = c.maxUserNetworks ∧ cfg.upstreamUserIps = c.upstreamUserIps ∧
    cfg.disableInactiveUsersDelay = c.disableInactiveUsersDelay ∧ cfg.enableUsersOnAuth = c.enableUsersOnAuth ∧
    cfg.auth = c.auth ∧ env.auth c.auth = true ∧ cfg.fileUploader = c.fileUpload ∧
    (c.motdPath = [] → cfg.motd = []) ∧
    (c.motdPath ≠ [] → env.readFile c.motdPath = some (cfg.motd ++ b!"\n") ∨
      env.readFile c.motdPath = some cfg.motd ∧ ¬ ∃ t, cfg.motd = t ++ b!"\n") ∧
    ∀ p, c.tls = some p → env.keyPair p = cert ∧ cert ≠ none

/-- The file and the files it names can be used. -/
def Usable (env : LoadEnv) : Prop :=
  ∃ raw c, env.raw = some raw ∧ Model.loadConfig env.lib raw = some c ∧
    (c.motdPath ≠ [] → env.readFile c.motdPath ≠ none) ∧ env.auth c.auth = true ∧
    ∀ p, c.tls = some p → env.keyPair p ≠ none

end Verif.Spec
