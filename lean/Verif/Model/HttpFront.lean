import Verif.Model.Upload
import Verif.Model.PathMatch
import Verif.Model.Url
import Verif.Model.Config

/-! # Model of the HTTP side of the bouncer

The handler of file uploads and downloads (fileupload/fileupload.go, fileupload/fs.go) and the addresses of clients
that come through a proxy (server.go, cmd/soju/main.go). -/

namespace Verif.Model
open Verif.Spec

/-- What the code uses of libraries besides `UpLib`: net/url, `mime.TypeByExtension`, `http.DetectContentType` and
the media type of `mime.ParseMediaType` (errors are ignored by the code). -/
structure HttpLib where
  up : UpLib
  url : UrlLib
  typeByExt : Str → Str
  detect : Str → Str
  mediaType : Str → Str

/-- How the check of the origin ends; `panic` is a bad pattern. -/
inductive Cors
  | panic
  | refused
  /-- the value of `Access-Control-Allow-Origin`, if it is set -/
  | allowed (origin : Option Str)
  deriving DecidableEq, Repr

/-- fileupload/fileupload.go:120-141: `setCORS`. `host` and `origin` are the header fields of the request (the origin
is empty if absent). `strings.EqualFold` is modelled on ASCII. -/
def setCors (lib : HttpLib) (patterns : List Str) (host origin : Str) : Cors :=
  if origin = [] then .allowed none
  else
    match urlParse lib.url origin with
    | none => .refused
    | some u =>
      if asciiLower u.host = asciiLower host then .allowed (some origin)
      else
        match checkOrigin patterns u.host with
        | none => .panic
        | some false => .refused
        | some true => .allowed (some origin)

/-- fileupload/fileupload.go:23-43: `inlineMIMETypes`. -/
def inlineMimeTypes : List Str := [
  b!"application/pdf", b!"audio/aac", b!"audio/mp4", b!"audio/mpeg", b!"audio/ogg", b!"audio/webm", b!"image/apng",
  b!"image/gif", b!"image/jpeg", b!"image/png", b!"image/webp", b!"text/plain", b!"video/mp4", b!"video/ogg",
  b!"video/webm"]

/-- An answer: the status, the header fields the handler sets, and the content. `disposition` is whether the content
may be shown in the browser, and the file name. -/
structure HttpResp where
  status : Nat
  csp : Str
  allowOrigin : Option Str
  location : Option Str
  contentType : Str
  disposition : Option (Bool × Str)
  content : Option Str
  deriving DecidableEq, Repr

/-- fileupload/fileupload.go:144: the policy of every answer. -/
def uploadCsp : Str := b!"sandbox; default-src 'none'; script-src 'none'; media-src 'self';"

/-- An answer without content (simplification: the texts of errors are left out). -/
def bareResp (status : Nat) (allow : Option Str) : HttpResp := ⟨status, uploadCsp, allow, none, [], none, none⟩

/-- net/url `shouldEscape` for segments of paths. -/
def keepInSegment (c : Byte) : Bool :=
  isAlpha c || decide (48 ≤ c ∧ c ≤ 57) || decide (c ∈ b!"-_.~$&+:=@")

/-- A digit of `%XX`. -/
def upperHex (n : Nat) : Byte := if n < 10 then 48 + n else 55 + n

/-- net/url `PathEscape`. -/
def pathEscape (s : Str) : Str :=
  s.flatMap (fun c => if keepInSegment c then [c] else [37, upperHex (c / 16), upperHex (c % 16)])

/-- fileupload/fs.go:100 and fileupload/fileupload.go:342-350: the location of a new file; `none` if it cannot be
parsed. `ResolveReference` is modelled for names other than "." and "..". -/
def uploadLocation (lib : UrlLib) (username name : Str) : Option Str :=
  let out := pathEscape username ++ b!"/" ++ pathEscape name
  match urlParse lib out, getScheme out with
  | some u, some (_, rest) => if u.scheme ≠ [] then some (u.scheme ++ b!":" ++ rest) else some (b!"/uploads/" ++ out)
  | _, _ => none

/-- fileupload/fs.go:41-44: the name of the file that is given to the client. -/
def shownName (filename : Str) : Str :=
  match cut 45 (pathBase filename) with
  | (_, some rest) => rest
  | (b, none) => b

/-- fileupload/fileupload.go:193-207: the type of the content. -/
def fetchType (lib : HttpLib) (basename content : Str) : Str :=
  if lib.typeByExt (pathExt basename) ≠ [] then lib.typeByExt (pathExt basename) else lib.detect (content.take 512)

/-- fileupload/fileupload.go:168-222: `Handler.fetch`, and fileupload/fs.go:22-46: `fileuploadFS.load`. `path` is the
path of the request, decoded. Ranges and conditional requests are not modelled. -/
def fetch (lib : HttpLib) (cwd : List Str) (root : Str) (fs : UpFs) (allow : Option Str) (path : Str) : HttpResp :=
  match fetchName path with
  | none => bareResp 404 allow
  | some filename =>
    match GoMap.get fs.files (resolve cwd (loadPath root filename)) with
    | none => bareResp 404 allow
    | some content =>
      let basename := shownName filename
      let ct := fetchType lib basename content
      ⟨200, uploadCsp, allow, none, ct, some (decide (lib.mediaType ct ∈ inlineMimeTypes), basename), some content⟩

/-- A request to the handler: what matters besides an upload. -/
structure HttpReq where
  method : Str
  host : Str
  origin : Str
  /-- the path, decoded -/
  path : Str
  authorization : Str
  contentType : Str
  contentDisposition : Str
  contentLength : Int
  body : UpBody
  deriving DecidableEq, Repr

/-- The request seen by `upHandle`, which checks neither origin nor method. -/
def HttpReq.upload (r : HttpReq) : UpRequest :=
  ⟨true, true, r.path, r.authorization, r.contentType, r.contentDisposition, r.contentLength, r.body⟩

/-- fileupload/fileupload.go:320-351: the answer to an upload (also 226-272, 287 and 297). -/
def uploadResp (lib : HttpLib) (auth : UpAuth) (allow : Option Str) (r : HttpReq) : UpStatus → HttpResp
  | .created p =>
    match upUser lib.up auth r.authorization with
    | .error _ => bareResp 500 allow
    | .ok u =>
      match uploadLocation lib.url u (p.getLast?.getD []) with
      | none => bareResp 500 allow
      | some l => { bareResp 201 allow with location := some l }
  | .tooLarge => bareResp 413 allow
  | .refused => bareResp 400 allow
  | .notFound => bareResp 404 allow
  | .unauthorized => bareResp 401 allow
  | .forbidden => bareResp 403 allow
  | .unsupported => bareResp 415 allow
  | .failed => bareResp 500 allow

/-- fileupload/fileupload.go:143-166: `Handler.ServeHTTP` with files kept on disk; `none` is a panic. `enabled` says
whether uploads are configured. -/
def serveUpload (lib : HttpLib) (auth : UpAuth) (patterns : List Str) (enabled : Bool) (cwd : List Str) (root : Str)
    (fs : UpFs) (tok : Nat → Nat → Str) (r : HttpReq) : Option (UpFs × HttpResp) :=
  match setCors lib patterns r.host r.origin with
  | .panic => none
  | .refused => some (fs, bareResp 403 none)
  | .allowed allow =>
    if enabled = false then some (fs, bareResp 404 allow)
    else if r.method = b!"OPTIONS" then some (fs, bareResp 204 allow)
    else if r.method = b!"HEAD" ∨ r.method = b!"GET" then some (fs, fetch lib cwd root fs allow r.path)
    else if r.method = b!"POST" then
      some ((upHandle lib.up auth cwd root fs tok r.upload).1,
        uploadResp lib auth allow r (upHandle lib.up auth cwd root fs tok r.upload).2)
    else some (fs, bareResp 405 allow)

/-! ## Addresses behind proxies -/

/-- What the code uses of libraries: `net.ParseIP` (4 or 16 bytes) and `mime.ParseMediaType`, of which only the
parameters are used (none after an error). -/
structure AddrLib where
  parseIp : Str → Option (List Byte)
  mediaParams : Str → GoMap Str Str

/-- The header fields about forwarded requests, empty if absent. -/
structure ForwardedHdrs where
  forwarded : Str
  xForwardedFor : Str
  deriving DecidableEq, Repr

/-- server.go:694-706: `parseForwarded`, of which only "for" is used. -/
def forwardedFor (lib : AddrLib) (h : ForwardedHdrs) : Str :=
  if h.forwarded = [] then h.xForwardedFor
  else (GoMap.get (lib.mediaParams (b!"hack; " ++ h.forwarded)) b!"for").getD []

/-- server.go:672-689: the address of a WebSocket client, in `ServeHTTP`. -/
def wsRemoteAddr (lib : AddrLib) (proxies : List IpNet) (remoteAddr : Str) (h : ForwardedHdrs) : Str :=
  let isProxy := match splitHostPort remoteAddr with
    | none => false
    | some (host, _) =>
      match lib.parseIp host with
      | none => false
      | some ip => ipSetContains proxies ip
  if isProxy then
    if forwardedFor lib h ≠ [] then forwardedFor lib h else remoteAddr
  else remoteAddr

/-- cmd/soju/main.go:467-482: whether the header of the PROXY protocol is used; `ip` is `none` for a peer that is not
on TCP. -/
def useProxyHeader (proxies : List IpNet) (ip : Option (List Byte)) : Bool :=
  match ip with
  | none => false
  | some ip => ipSetContains proxies ip

/-- The address a connection is known by: that of the PROXY header if it is used and there is one, else that of the
peer (github.com/pires/go-proxyproto `Conn.RemoteAddr`). -/
def proxyRemoteAddr (proxies : List IpNet) (ip : Option (List Byte)) (peer : Str) (header : Option Str) : Str :=
  if useProxyHeader proxies ip then header.getD peer else peer

/-- The address a WebSocket client is known by: cmd/soju/main.go:331 puts the listener for the PROXY protocol under the
HTTP server. -/
def wsClientAddr (lib : AddrLib) (proxies : List IpNet) (ip : Option (List Byte)) (peer : Str) (header : Option Str)
    (h : ForwardedHdrs) : Str :=
  wsRemoteAddr lib proxies (proxyRemoteAddr proxies ip peer header) h

end Verif.Model
