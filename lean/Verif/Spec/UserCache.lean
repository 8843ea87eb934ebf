import Verif.Model.UserCache

/-! # What the server last said about a user -/

namespace Verif.Spec
open Verif.Model

/-- The value a message gives for a column of the user with the folded nick `k`, if it gives one. -/
def reported (e : UcEnv) (f : WhoField) (k : Str) : UcOp → Option Str
  | .setname src real => if casemap e.cm src = k ∧ f = .real then some real else none
  | .account src a => if casemap e.cm src = k ∧ f = .account then some a else none
  | .chghost src u h =>
    if casemap e.cm src = k then
      (match f with | .user => some u | .host => some h | _ => none)
    else none
  | .join src u h bot ext _ =>
    if casemap e.cm src = k then
      (match f with
       | .user => if u = [] then none else some u
       | .host => if h = [] then none else some h
       | .flags => if e.awayNotify then some (b!"H" ++ (if bot then e.bot.getD [] else [])) else none
       | .account => ext.map (·.1)
       | .real => ext.map (·.2)
       | .server => none)
    else none
  | .who info => if casemap e.cm info.nick = k ∧ info.get f ≠ [] then some (info.get f) else none
  | _ => none

/-- Flags of WHO, which say whether the user is here ('H') or gone ('G'), once it is known which. -/
def saysAway (away : Bool) (flags : Str) : Str :=
  flags.map (fun c => if c ∈ b!"HG" then (if away then 71 else 72) else c)

/-- What the server last said about a column of the user whose folded nick is now `k`: the messages,
newest first, are searched back through the changes of nick; a user who quit or went offline and a nick
given up tell nothing about the next one to use the nick.  Empty is unknown. -/
def lastKnown (e : UcEnv) (f : WhoField) : List UcOp → Str → Str
  | [], _ => []
  | op :: older, k =>
    match op with
    | .nick a b =>
      if casemap e.cm b = k then lastKnown e f older (casemap e.cm a)
      else if casemap e.cm a = k then [] else lastKnown e f older k
    | .quit a => if casemap e.cm a = k then [] else lastKnown e f older k
    | .monitor ns false =>
      if k ∈ ns.map (casemap e.cm) then [] else lastKnown e f older k
    | .away a b =>
      if casemap e.cm a = k ∧ f = .flags then saysAway b (lastKnown e f older k)
      else lastKnown e f older k
    | op => (reported e f k op).getD (lastKnown e f older k)

/-- The column a WHOX letter asks for, among the cached ones. -/
def whoLetter : Byte → Option WhoField
  | 117 => some .user | 104 => some .host | 115 => some .server
  | 102 => some .flags | 97 => some .account | 114 => some .real
  | _ => none

/-- The user with the folded nick `k` is visible: it is us, it is monitored, or it is on one of our
channels. -/
def VisibleUser (e : UcEnv) (st : UcState) (k : Str) : Prop :=
  casemap e.cm st.nick = k ∨ k ∈ st.monitored ∨ ∃ c ms, (c, ms) ∈ st.chans ∧ k ∈ ms

/-- It shares a channel with us, or is us. -/
def OnChannel (e : UcEnv) (st : UcState) (k : Str) : Prop :=
  casemap e.cm st.nick = k ∨ ∃ c ms, (c, ms) ∈ st.chans ∧ k ∈ ms

/-- What a server may send in a state: it does not tell about users we cannot see, nor about channels
we are not on, and does not make us join a channel twice. -/
def Proper (e : UcEnv) (st : UcState) : UcOp → Prop
  | .nick a _ => OnChannel e st (casemap e.cm a)
  | .setname a _ => VisibleUser e st (casemap e.cm a)
  | .account a _ => VisibleUser e st (casemap e.cm a)
  | .join a _ _ _ _ cs =>
    if ucOurs e st a then ∀ c ∈ cs, GoMap.get st.chans (casemap e.cm c) = none
    else cs ≠ [] ∧ ∀ c ∈ cs, GoMap.get st.chans (casemap e.cm c) ≠ none
  | _ => True

/-- The messages the cache keeps up with: not CHGHOST, not a monitored user going offline, and no
empty nick, real name or account. -/
def Tame : UcOp → Prop
  | .chghost _ _ _ => False
  | .monitor _ online => online = true
  | .nick _ b => b ≠ []
  | .setname _ r => r ≠ []
  | .account _ a => a ≠ []
  | .join _ _ _ _ ext _ => ∀ a r, ext = some (a, r) → a ≠ [] ∧ r ≠ []
  | _ => True

/-- A history a well-behaved server may send from a state. -/
def ProperRun (e : UcEnv) : UcState → List UcOp → Prop
  | _, [] => True
  | st, op :: ops => Proper e st op ∧ ∀ st', ucStep e st op = some st' → ProperRun e st' ops

/-- The messages that mean what they say: no one is renamed to the empty nick. -/
def NamedRun (ops : List UcOp) : Prop := ∀ a b, UcOp.nick a b ∈ ops → b ≠ []

end Verif.Spec
