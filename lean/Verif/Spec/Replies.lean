import Verif.Model.Replies

/-! # Who gets the reply to a query: specification (C118) -/

namespace Verif.Spec
open Verif.Model

/-- The commands a server answers with a reply that ends with a line of its own. -/
def askKinds : List Str := [b!"LIST", b!"WHO", b!"WHOIS", b!"REGISTER", b!"VERIFY"]

/-- A line of the reply to a command. -/
def IsLine (kind : Str) (x : Msg) : Prop :=
  (kind = b!"LIST" ∧ x.command ∈ [b!"321", b!"322"]) ∨
  (kind = b!"WHO" ∧ (x.command = b!"354" ∨
    (x.command = b!"352" ∧ ∃ a b c d e f g t l, x.params = a :: b :: c :: d :: e :: f :: g :: t :: l ∧ 32 ∈ t))) ∨
  (kind = b!"WHOIS" ∧ x.command ∈ [b!"276", b!"307", b!"311", b!"312", b!"313", b!"317", b!"319", b!"320", b!"330", b!"338",
    b!"378", b!"379", b!"671"])

/-- The last line of the reply to a command. -/
def IsEnd (kind : Str) (x : Msg) : Prop :=
  (kind = b!"LIST" ∧ x.command = b!"323") ∨ (kind = b!"WHO" ∧ x.command = b!"315") ∨ (kind = b!"WHOIS" ∧ x.command = b!"318") ∨
  (kind = b!"REGISTER" ∧ x.command = b!"REGISTER" ∧ 2 ≤ x.params.length) ∨ (kind = b!"VERIFY" ∧ x.command = b!"VERIFY")

/-- The server refuses a command, by its name. -/
def IsRefusal (kind : Str) (x : Msg) : Prop :=
  (x.command ∈ [b!"263", b!"400", b!"421", b!"461"] ∧ ∃ nick reason l, x.params = nick :: kind :: reason :: l) ∨
  (x.command = b!"FAIL" ∧ ∃ code l, x.params = kind :: code :: l)

/-- There is nobody (or no server) of the name asked for. -/
def IsNobody (q x : Msg) : Prop :=
  q.command = b!"WHOIS" ∧ x.command ∈ [b!"401", b!"402"] ∧
    ∃ nick name reason l, x.params = nick :: name :: reason :: l ∧ q.params.getLast? = some name

/-- The answers to a command: lines with an end, or one line that says that there is none. -/
inductive IsAnswer (q : Msg) : List Msg → Prop where
  | reply (lines : List Msg) (last : Msg) (h1 : ∀ x ∈ lines, IsLine q.command x) (h2 : IsEnd q.command last) : IsAnswer q (lines ++ [last])
  | refusal (x : Msg) (h : IsRefusal q.command x) : IsAnswer q [x]
  | nobody (x : Msg) (h : IsNobody q x) : IsAnswer q [x]

/-- A command as clients can give it (C117). -/
def IsQuery (q : Msg) : Prop :=
  q.command ∈ askKinds ∧ (q.command = b!"WHOIS" → q.params ≠ []) ∧ (q.command = b!"REGISTER" → 3 ≤ q.params.length) ∧
    (q.command = b!"VERIFY" → 2 ≤ q.params.length)

/-- What the server has yet to say to the command it works on: the client, the lines and when it got the command. -/
structure Owed where
  client : Nat
  lines : List Msg
  since : Nat
deriving DecidableEq, Repr

/-- The bouncer with a server, and a record of what happens. -/
structure Play where
  st : QrState
  /-- what the server owes, by kind of command -/
  owed : Str → Option Owed
  /-- what the clients asked for: client and command -/
  asked : List (Nat × Msg)
  /-- the commands the server got: client, command and the answer to it -/
  served : List (Nat × Msg × List Msg)
  /-- what a client was sent when the server spoke in answer to a kind of command -/
  got : Str → Nat → List Msg
  /-- the numbers of clients that were used -/
  seen : List Nat

/-- What happens.  `next` is the answer the server will give to the command it gets by this event, if it gets one. -/
inductive PlayOp where
  | login (c : Nat)
  | gone (c : Nat)
  | query (c : Nat) (m : Msg) (now : Nat) (next : List Msg)
  /-- the server says the next line about a kind of command, with a label or without -/
  | says (kind : Str) (labelled : Bool) (now : Nat) (next : List Msg)

/-- What a client has been sent. -/
def sentTo (st : QrState) (c : Nat) : List Msg := (st.clients.filter (fun p => p.1 = c)).flatMap (·.2)

/-- The server gets commands. -/
def playServe (p : Play) (sent : List Sent) (next : List Msg) (now : Nat) : Play :=
  sent.foldl (fun p s =>
    { p with owed := fun k => if k = s.msg.command then some ⟨s.client, next, now⟩ else p.owed k
             served := p.served ++ [(s.client, s.msg, next)] }) p

/-- The record of what happens. -/
def playStep (cm : CaseMapping) (p : Play) : PlayOp → Play
  | .login c => { p with st := (qrStep cm p.st (.login c)).1, seen := p.seen ++ [c] }
  | .gone c => { p with st := (qrStep cm p.st (.gone c)).1 }
  | .query c m now next =>
    let r := qrStep cm p.st (.query c m now)
    playServe { p with st := r.1, asked := p.asked ++ [(c, m)] } r.2 next now
  | .says kind labelled now next =>
    match p.owed kind with
    | none => p
    | some o =>
      match o.lines with
      | [] => p
      | x :: rest =>
        let r := qrStep cm p.st (.says (if labelled then o.client else 0) x now)
        playServe
          { p with
            st := r.1
            owed := fun k => if k = kind then (if rest = [] then none else some { o with lines := rest }) else p.owed k
            got := fun k c => p.got k c ++ if k = kind then (sentTo r.1 c).drop (sentTo p.st c).length else [] }
          r.2 next now

/-- The conditions: the server answers as servers do, within 30 seconds if another client asks; it labels its refusals,
if the client has gone; numbers of clients are not used twice. -/
def playOk (cm : CaseMapping) (p : Play) : PlayOp → Prop
  | .login c => c ≠ 0 ∧ c ∉ p.seen
  | .gone _ => True
  | .query c m now next =>
    c ∈ p.st.clients.map (·.1) ∧ IsQuery m ∧ (∀ o, p.owed m.command = some o → now ≤ o.since + 30000000000) ∧
      ∀ s ∈ (qrStep cm p.st (.query c m now)).2, IsAnswer s.msg next
  | .says kind labelled now next =>
    ∀ o x rest, p.owed kind = some o → o.lines = x :: rest →
      (IsRefusal kind x → labelled = false → o.client ∈ p.st.clients.map (·.1)) ∧
      ∀ s ∈ (qrStep cm p.st (.says (if labelled then o.client else 0) x now)).2, IsAnswer s.msg next

/-- The start. -/
def playStart : Play := ⟨⟨[], []⟩, fun _ => none, [], [], fun _ _ => [], []⟩

/-- A history. -/
def playRun (cm : CaseMapping) (ops : List PlayOp) : Play := ops.foldl (playStep cm) playStart

/-- The conditions hold all along. -/
def PlayOk (cm : CaseMapping) (ops : List PlayOp) : Prop :=
  ∀ pre op post, ops = pre ++ op :: post → playOk cm (playRun cm pre) op

/-- The commands of a kind and a client that the server got, with their answers. -/
def servedFor (p : Play) (k : Str) (c : Nat) : List (Nat × Msg × List Msg) :=
  p.served.filter (fun s => s.1 = c ∧ s.2.1.command = k)

/-- The commands of a kind that a client gave. -/
def askedBy (p : Play) (k : Str) (c : Nat) : List Msg :=
  (p.asked.filter (fun a => a.1 = c ∧ a.2.command = k)).map (·.2)

/-- What the server has yet to say to a client about a kind of command. -/
def owedTo (p : Play) (k : Str) (c : Nat) : List Msg :=
  match p.owed k with
  | none => []
  | some o => if o.client = c then o.lines else []

/-- The command about a person. -/
def whoisOf (n : Str) : Msg := ⟨b!"WHOIS", [n]⟩

/-- What a client has been sent after a history. -/
def heardIn (cm : CaseMapping) (ops : List QrOp) (c : Nat) : List Msg :=
  sentTo (ops.foldl (fun st op => (qrStep cm st op).1) ⟨[], []⟩) c

end Verif.Spec
