import Verif.Model.Whox
import Verif.Model.Words
import Verif.Model.GoMap
import Verif.Spec.LogPath

/-! # Model of the file uploads (fileupload/fileupload.go, fileupload/fs.go)

Files and directories are named by the list of names that leads to them from the root directory
(`Spec.resolve`; symbolic links are not modelled). -/

namespace Verif.Model
open Verif.Spec

/-- `path.Base` of Go's standard library. -/
def pathBase (s : Str) : Str :=
  if s = [] then b!"."
  else
    let t := (s.reverse.dropWhile (fun c => decide (c = 47))).reverse
    if t = [] then b!"/" else (t.reverse.takeWhile (fun c => decide (c ≠ 47))).reverse

/-- `filepath.Ext` of Go's standard library: from the last dot of the last element. -/
def pathExt (s : Str) : Str :=
  let last := (s.reverse.takeWhile (fun c => decide (c ≠ 47))).reverse
  if 46 ∈ last then 46 :: (last.reverse.takeWhile (fun c => decide (c ≠ 46))).reverse else []

/-- The file system as far as uploads are concerned: contents of files, and directories. -/
structure UpFs where
  files : GoMap (List Str) Str
  dirs : List (List Str)
  deriving DecidableEq, Repr

/-- What the code uses of libraries: `Request.BasicAuth` on the Authorization header, `mime.ParseMediaType`
(the parameters it returns are a map) and `mime.ExtensionsByType`. -/
structure UpLib where
  basicAuth : Str → Option (Str × Str)
  parseMedia : Str → Option (Str × GoMap Str Str)
  exts : Str → List Str

/-- fileupload/fileupload.go:52-60: `primaryExts`. -/
def primaryExts : GoMap Str Str := [
  (b!"audio/aac", b!"aac"), (b!"audio/mp4", b!"mp4"), (b!"audio/mpeg", b!"mp3"), (b!"audio/ogg", b!"oga"),
  (b!"image/jpeg", b!"jpeg"), (b!"text/plain", b!"txt"), (b!"video/mp4", b!"mp4")]

/-- fileupload/fs.go:49-56: the suffix given to a file name without an extension. -/
def upSuffix (lib : UpLib) (mimeType orig : Str) : Str :=
  if pathExt orig = [] ∧ mimeType ≠ [] then
    match GoMap.get primaryExts mimeType with
    | some ext => b!"." ++ ext
    | none =>
      match lib.exts mimeType with
      | [ext] => ext
      | _ => []
  else []

/-- fileupload/fs.go:65-78: the name tried in the `i`-th attempt; `tok i n` is the hexadecimal form of `n`
random bytes. -/
def upName (tok : Nat → Nat → Str) (orig suffix : Str) (i : Nat) : Str :=
  tok i (if orig ≠ [] ∧ i = 0 then 4 else 8) ++ (if orig ≠ [] then b!"-" ++ orig else []) ++ suffix

/-- `os.OpenFile` with `O_CREATE|O_EXCL`: the file must not exist, its directory must. -/
inductive OpenResult
  | created (path : List Str)
  | exists
  | failed
  deriving DecidableEq, Repr

/-- fileupload/fs.go:80: the exclusive creation of the file. -/
def openExcl (fs : UpFs) (cwd : List Str) (path : Str) : OpenResult :=
  let r := resolve cwd path
  if (GoMap.get fs.files r).isSome ∨ r ∈ fs.dirs then .exists
  else if r.dropLast ∈ fs.dirs then .created r
  else .failed

/-- fileupload/fs.go:63-89: the loop that picks a name; `k` attempts are left. -/
def pickFile (fs : UpFs) (cwd : List Str) (dir : Str) (tok : Nat → Nat → Str) (orig suffix : Str) :
    Nat → Nat → Option (List Str)
  | 0, _ => none
  | k + 1, i =>
    match openExcl fs cwd (joinPath [dir, upName tok orig suffix i]) with
    | .created p => some p
    | .exists => pickFile fs cwd dir tok orig suffix k (i + 1)
    | .failed => none

/-- `os.MkdirAll`: the directory and all those that lead to it. -/
def mkdirAll (fs : UpFs) (d : List Str) : UpFs :=
  { fs with dirs := fs.dirs ++ ((List.range (d.length + 1)).map (fun n => d.take n)).filter (fun x => decide (x ∉ fs.dirs)) }

/-- The body of a request: the bytes that arrive, and whether the body is complete. -/
structure UpBody where
  data : Str
  complete : Bool
  deriving DecidableEq, Repr

/-- fileupload/fileupload.go:21: `maxSize`. -/
def upMaxSize : Nat := 50 * 1024 * 1024

/-- fileupload/fs.go:92-97 and `http.MaxBytesReader`: the bytes written, and whether copying succeeds. -/
def upCopy (b : UpBody) : Str × Bool := (b.data.take upMaxSize, b.complete && decide (b.data.length ≤ upMaxSize))

/-- How an upload ends. -/
inductive UpStatus
  | created (path : List Str)
  | tooLarge
  | refused
  | notFound
  /-- no credentials -/
  | unauthorized
  /-- the credentials are wrong -/
  | forbidden
  /-- a text in another encoding than UTF-8 -/
  | unsupported
  | failed
  deriving DecidableEq, Repr

/-- fileupload/fs.go:48-100: `fileuploadFS.store`. The creation of the directory is assumed to succeed. A
file that could not be written completely is not removed. -/
def upStore (lib : UpLib) (cwd : List Str) (root : Str) (fs : UpFs) (tok : Nat → Nat → Str)
    (username mimeType orig : Str) (body : UpBody) : UpFs × UpStatus :=
  let dir := joinPath [root, username]
  let fs := mkdirAll fs (resolve cwd dir)
  match pickFile fs cwd dir tok orig (upSuffix lib mimeType orig) 100 0 with
  | none => (fs, .failed)
  | some p =>
    let fs := { fs with files := GoMap.set fs.files p (upCopy body).1 }
    if (upCopy body).2 then (fs, .created p)
    else if body.data.length > upMaxSize then (fs, .tooLarge)
    else (fs, .failed)

/-- A request: whether its origin is allowed (`setCORS`), whether its method is POST, path, the header fields that matter (empty if absent), and the announced length
(`-1` if unknown). -/
structure UpRequest where
  originOk : Bool
  post : Bool
  path : Str
  authorization : Str
  contentType : Str
  contentDisposition : Str
  contentLength : Int
  body : UpBody
  deriving DecidableEq, Repr

/-- auth/auth.go: the configured authenticators: passwords, and bearer tokens (which give the name of the
user). -/
structure UpAuth where
  plain : Option (Str → Str → Bool)
  bearer : Option (Str → Option Str)

/-- fileupload/fileupload.go:230-276: the user a request is authenticated as. -/
def upUser (lib : UpLib) (auth : UpAuth) (authz : Str) : Except UpStatus Str :=
  if authz = [] then .error .unauthorized
  else
    let scheme := asciiLower (cut 32 authz).1
    if scheme = b!"basic" then
      match auth.plain, lib.basicAuth authz with
      | none, _ => .error .refused
      | some _, none => .error .refused
      | some f, some (u, p) => if f u p then .ok u else .error .forbidden
    else if scheme = b!"bearer" then
      match auth.bearer with
      | none => .error .refused
      | some f =>
        match f ((cut 32 authz).2.getD []) with
        | none => .error .forbidden
        | some u => .ok u
    else .error .refused

/-- fileupload/fileupload.go:278-300: the type of the content. -/
def upMime (lib : UpLib) (contentType : Str) : Except UpStatus Str :=
  if contentType = [] then .ok []
  else
    match lib.parseMedia contentType with
    | none => .error .refused
    | some (t, params) =>
      let charset := asciiLower ((GoMap.get params b!"charset").getD [])
      if charset = [] ∨ charset = b!"utf-8" ∨ charset = b!"us-ascii" then
        .ok (if t = b!"application/octet-stream" then [] else t)
      else .error .unsupported

/-- fileupload/fileupload.go:302-310: the name of the file. -/
def upBasename (lib : UpLib) (contentDisposition : Str) : Option Str :=
  if contentDisposition = [] then some []
  else
    match lib.parseMedia contentDisposition with
    | none => none
    | some (_, params) => some (pathBase ((GoMap.get params b!"filename").getD []))

/-- fileupload/fileupload.go:224-351: `Handler.store`, and the check of the origin and the dispatch on the method (146-165). -/
def upHandle (lib : UpLib) (auth : UpAuth) (cwd : List Str) (root : Str) (fs : UpFs) (tok : Nat → Nat → Str)
    (req : UpRequest) : UpFs × UpStatus :=
  if req.originOk = false then (fs, .refused)
  else if req.post = false then (fs, .refused)
  else if req.path ≠ b!"/uploads" then (fs, .notFound)
  else
    match upUser lib auth req.authorization with
    | .error e => (fs, e)
    | .ok username =>
      match upMime lib req.contentType, upBasename lib req.contentDisposition with
      | .error e, _ => (fs, e)
      | .ok _, none => (fs, .refused)
      | .ok mimeType, some basename =>
        if req.contentLength > upMaxSize then (fs, .tooLarge)
        else upStore lib cwd root fs tok username mimeType basename req.body

/-- fileupload/fileupload.go:168-180: the file name a GET request asks for. -/
def fetchName (path : Str) : Option Str :=
  if hasPrefix b!"/uploads/" path = false then none
  else
    let filename := (joinPath [b!"/", trimPrefix b!"/uploads/" path]).drop 1
    if filename = [] then none else some filename

/-- fileupload/fs.go:22-23: the path of the file that is opened. -/
def loadPath (root filename : Str) : Str := joinPath [root, filename]

end Verif.Model
