import Verif.Model.HttpFront

/-! # Model of the uploads that are kept by another service

fileupload/http.go (`fileuploadHTTP`), with the handler of fileupload/fileupload.go:143-350 in front of it. -/

namespace Verif.Model

/-- fileupload/http.go:25-37 — what is sent to the service: an HTTP request with the method POST.  Header fields that
are not set are `none`. -/
structure StoreReq where
  url : Str
  contentDisposition : Option Str
  contentType : Option Str
  /-- `Soju-Username` -/
  username : Str
  body : UpBody
deriving DecidableEq, Repr

/-- The answer of the service, after the redirections that the HTTP client follows. -/
structure StoreResp where
  status : Nat
  /-- empty if absent -/
  location : Str
  contentType : Str
  content : Str
deriving DecidableEq, Repr

/-- Why there is no answer. -/
inductive StoreErr
  /-- the body is larger than the limit -/
  | tooLarge
  /-- there is no connection, a header field cannot be sent, the body is not complete, … -/
  | other
deriving DecidableEq, Repr

/-- What the code uses of libraries besides `HttpLib`: `mime.FormatMediaType("attachment", {filename})`, and
`url.Parse` with `ResolveReference` of `/uploads/` (`none`: not a URL). -/
structure StoreLib where
  http : HttpLib
  disposition : Str → Str
  resolve : Str → Option Str

/-- The body as read through `http.MaxBytesReader` (fileupload/fileupload.go:319). -/
def limitBody (b : UpBody) : UpBody := ⟨(upCopy b).1, (upCopy b).2⟩

/-- fileupload/http.go:24-37 — the request for an upload. -/
def storeReq (lib : StoreLib) (url username mimeType orig : Str) (body : UpBody) : StoreReq :=
  ⟨url, if orig ≠ [] then some (lib.disposition orig) else none, if mimeType ≠ [] then some mimeType else none, username,
    limitBody body⟩

/-- How an upload ends here. -/
inductive StoreResult
  | location (l : Str)
  /-- the error of the service is passed on -/
  | passed (resp : StoreResp)
  | tooLarge
  | failed
deriving DecidableEq, Repr

/-- fileupload/http.go:39-58 — what is made of the answer. -/
def storeResult : Except StoreErr StoreResp → StoreResult
  | .error .tooLarge => .tooLarge
  | .error .other => .failed
  | .ok resp =>
    if 400 ≤ resp.status ∧ resp.status < 600 then .passed resp
    else if resp.status ≠ 201 then .failed
    else if resp.location = [] then .failed
    else .location resp.location

/-- fileupload/fileupload.go:224-351 — `Handler.store` with this storage: what is sent to the service, and the answer.
`service` is what the service answers. -/
def storeHttp (lib : StoreLib) (auth : UpAuth) (url : Str) (service : StoreReq → Except StoreErr StoreResp)
    (allow : Option Str) (r : HttpReq) : List StoreReq × HttpResp :=
  if r.path ≠ b!"/uploads" then ([], bareResp 404 allow)
  else
    match upUser lib.http.up auth r.authorization with
    | .error e => ([], uploadResp lib.http auth allow r e)
    | .ok username =>
      match upMime lib.http.up r.contentType, upBasename lib.http.up r.contentDisposition with
      | .error e, _ => ([], uploadResp lib.http auth allow r e)
      | .ok _, none => ([], bareResp 400 allow)
      | .ok mimeType, some basename =>
        if r.contentLength > upMaxSize then ([], bareResp 413 allow)
        else
          let req := storeReq lib url username mimeType basename r.body
          ([req], match storeResult (service req) with
            -- fileupload/fileupload.go:342-350
            | .location l =>
              match lib.resolve l with
              | none => bareResp 500 allow
              | some l => { bareResp 201 allow with location := some l }
            -- fileupload/fileupload.go:72-83, 323-326
            | .passed resp => { bareResp resp.status allow with contentType := resp.contentType, content := some resp.content }
            | .tooLarge => bareResp 413 allow
            | .failed => bareResp 500 allow)

/-- fileupload/fileupload.go:143-166 — `Handler.ServeHTTP` with this storage; `none` is a panic.  Files cannot be
fetched (fileupload/http.go:19-22), so that `fetch` always answers 404 (fileupload/fileupload.go:168-191). -/
def serveHttp (lib : StoreLib) (auth : UpAuth) (patterns : List Str) (url : Str)
    (service : StoreReq → Except StoreErr StoreResp) (r : HttpReq) : Option (List StoreReq × HttpResp) :=
  match setCors lib.http patterns r.host r.origin with
  | .panic => none
  | .refused => some ([], bareResp 403 none)
  | .allowed allow =>
    if r.method = b!"OPTIONS" then some ([], bareResp 204 allow)
    else if r.method = b!"HEAD" ∨ r.method = b!"GET" then some ([], bareResp 404 allow)
    else if r.method = b!"POST" then some (storeHttp lib auth url service allow r)
    else some ([], bareResp 405 allow)

end Verif.Model
