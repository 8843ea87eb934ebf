import Verif.Model.Listen
import Verif.Model.Service
import Verif.Model.Words
import Verif.Model.ChanView

/-! # Model of the administration socket (server.go) and of sojuctl (cmd/sojuctl/main.go)

Messages are carried whole between the two: that a text printed by the service has no line break is not
modelled. -/

namespace Verif.Model

/-- service.go:135-167 — `handleServiceCommand` as seen by its callers: for a context, a state and the words of a
command, the state afterwards, the texts printed and the error, if any. -/
abbrev AdmSvc (S : Type) := SvcCtx → S → List Str → S × List Str × Option Str

/-- service.go:127-133 — `handleServicePRIVMSG`; the reason in the error of `splitWords` is left out. -/
def admText {S : Type} (svc : AdmSvc S) (ctx : SvcCtx) (st : S) (text : Str) : S × List Str × Option Str :=
  match splitWords text with
  | none => (st, [], some b!"failed to parse command")
  | some words => svc ctx st words

/-- What the handling of a message leads to. -/
structure AdmResult (S : Type) where
  st : S
  out : List VMsg
  close : Bool

/-- server.go:604-616 — the answer after the command. -/
def admAnswer (pre cmd : Str) : Option Str → VMsg
  | some err => ⟨pre, b!"FAIL", [cmd, err]⟩
  | none => ⟨pre, cmd, [b!"OK"]⟩

/-- server.go:571-626 — the loop body of `HandleAdmin`; `pre` is the name of the server. -/
def admStep {S : Type} (svc : AdmSvc S) (pre : Str) (st : S) (m : VMsg) : AdmResult S :=
  if m.command = b!"CAP" ∨ m.command = b!"NICK" ∨ m.command = b!"USER" ∨ m.command = b!"PASS" then
    ⟨st, [⟨[], b!"ERROR", [b!"This is not a regular IRC server"]⟩], true⟩
  else if m.command = b!"BOUNCERSERV" then
    match m.params with
    | [] => ⟨st, [⟨[], b!"461", [b!"*", m.command, b!"Not enough parameters"]⟩], false⟩
    | text :: _ =>
      let r := admText svc ⟨none, true⟩ st text
      let lines := r.2.1.map (fun t => (⟨pre, b!"PRIVMSG", [b!"*", t]⟩ : VMsg))
      ⟨r.1, lines ++ [admAnswer pre m.command r.2.2], false⟩
  else ⟨st, [⟨pre, b!"421", [b!"*", m.command, b!"Unknown command"]⟩], false⟩

/-- server.go:563-626 — the loop of `HandleAdmin` over the messages of a connection. -/
def admLoop {S : Type} (svc : AdmSvc S) (pre : Str) (st : S) : List VMsg → S × List VMsg
  | [] => (st, [])
  | m :: ms =>
    let r := admStep svc pre st m
    if r.close then (r.st, r.out)
    else
      let s := admLoop svc pre r.st ms
      (s.1, r.out ++ s.2)

/-- server.go:537-626 — `HandleAdmin`. -/
def handleAdmin {S : Type} (svc : AdmSvc S) (pre : Str) (shutdown : Bool) (st : S) (ms : List VMsg) : S × List VMsg :=
  if shutdown then (st, [⟨[], b!"ERROR", [b!"Server is shutting down"]⟩])
  else admLoop svc pre st ms

/-- cmd/sojuctl/main.go:27-46 — the path of the socket. -/
def ctlPath (lib : UrlLib) : List Str → Option Str
  | [] => none
  | listen :: rest =>
    match urlParse lib listen with
    | none => ctlPath lib rest
    | some u =>
      if u.scheme ≠ b!"unix+admin" then ctlPath lib rest
      else
        let path := u.host ++ u.path
        some (if path = [] then defaultUnixAdminPath else path)

/-- fmt (library) `Errorf` of a format without arguments; `true` after a percent sign and flags. Simplification: a
width, a precision or an argument index is taken for the verb. -/
def fmtNoArgs : Bool → Str → Str
  | false, [] => []
  | true, [] => b!"%!(NOVERB)"
  | false, c :: s => if c = 37 then fmtNoArgs true s else c :: fmtNoArgs false s
  | true, c :: s =>
    if c = 35 ∨ c = 48 ∨ c = 43 ∨ c = 45 ∨ c = 32 then fmtNoArgs true s
    else if c = 37 then 37 :: fmtNoArgs false s
    else b!"%!" ++ [c] ++ b!"(MISSING)" ++ fmtNoArgs false s

/-- irc.v4 (library) `Message.Trailing`. -/
def msgTrailing (m : VMsg) : Str := (m.params.getLast?).getD []

/-- cmd/sojuctl/main.go:59-76 — what sojuctl prints for the answer of the server and how it ends: `none` for success,
otherwise the error. -/
def ctlRead : List VMsg → List Str × Option Str
  | [] => ([], some b!"read: EOF")
  | m :: ms =>
    if m.command = b!"PRIVMSG" then
      let r := ctlRead ms
      (msgTrailing m :: r.1, r.2)
    else if m.command = b!"BOUNCERSERV" then
      if (m.params.head?).getD [] = b!"OK" then ([], none) else ([], some (fmtNoArgs false (msgTrailing m)))
    else ([], some (fmtNoArgs false (msgTrailing m)))

/-- cmd/sojuctl/main.go:53-57 — the command sent. -/
def ctlMessage (isPrint : Nat → Bool) (words : List Str) : VMsg := ⟨[], b!"BOUNCERSERV", [quoteWords isPrint words]⟩

/-- cmd/sojuctl/main.go:47-76 — sojuctl connected to `HandleAdmin`; `n` is the number of messages of the answer that
arrive before the connection fails. -/
def ctlSession {S : Type} (svc : AdmSvc S) (isPrint : Nat → Bool) (pre : Str) (shutdown : Bool) (n : Nat) (st : S)
    (words : List Str) : S × List Str × Option Str :=
  let r := handleAdmin svc pre shutdown st [ctlMessage isPrint words]
  (r.1, ctlRead (r.2.take n))

end Verif.Model
