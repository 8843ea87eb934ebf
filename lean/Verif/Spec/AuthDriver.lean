import Verif.Model.AuthDriver

/-! # Logging in, as the user sees it -/

namespace Verif.Spec
open Verif.Model

/-! ## RFC 7617 and application/x-www-form-urlencoded, read by a server -/

/-- The user name and password in an `Authorization` header: what precedes the first colon, and what follows it. -/
def basicCreds (header : Str) : Option (Str × Str) :=
  if header.take 6 = b!"Basic " then
    (Base64.decode .std (header.drop 6)).bind fun s =>
      if 58 ∈ s then some (s.takeWhile (fun c => decide (c ≠ 58)), (s.dropWhile (fun c => decide (c ≠ 58))).drop 1)
      else none
  else none

/-- The value of a hexadecimal digit. -/
def hexValue (c : Byte) : Option Nat :=
  if 48 ≤ c ∧ c ≤ 57 then some (c - 48)
  else if 65 ≤ c ∧ c ≤ 70 then some (c - 55)
  else if 97 ≤ c ∧ c ≤ 102 then some (c - 87)
  else none

/-- A value in a form: a plus sign is a space, and `%` is followed by two digits. -/
def formValue : Str → Option Str
  | [] => some []
  | 37 :: a :: b :: s =>
    match hexValue a, hexValue b, formValue s with
    | some x, some y, some r => some ((16 * x + y) :: r)
    | _, _, _ => none
  | c :: s => if c = 37 then none else (formValue s).map ((if c = 43 then 32 else c) :: ·)

/-- A form with a single field. -/
def FormHas (body name value : Str) : Prop :=
  ∃ raw, body = name ++ b!"=" ++ raw ∧ 38 ∉ raw ∧ 61 ∉ raw ∧ formValue raw = some value

/-! ## Accounts -/

/-- What the account was last set to, by those in charge of it: the administrators and the user. -/
def lastSet (init : Option AcctRow) : List AcctOp → Option AcctRow
  | [] => init
  | .update r ok :: ops => lastSet (if ok then init.map fun cur => { r with id := cur.id } else init) ops
  | .create r :: ops => lastSet (some (init.getD r)) ops
  | .delete :: ops => lastSet none ops
  | _ :: ops => lastSet init ops

/-- The hash is of the current kind (or unreadable, or there is none). -/
def Current (lib : BcryptLib) (r : AcctRow) : Prop :=
  r.password = [] ∨ ∀ c, lib.cost r.password = some c → bcryptDefaultCost ≤ c

/-- Logins do not change accounts. -/
def LoginsHarmless (lib : BcryptLib) : Prop :=
  ∀ init ops, (acctRun lib ⟨init, init, []⟩ ops).db = lastSet init ops ∨
    ∃ r r', (acctRun lib ⟨init, init, []⟩ ops).db = some r' ∧ lastSet init ops = some r ∧
      { r' with password := r.password } = r ∧ ∀ p, lib.compare r'.password p = lib.compare r.password p

/-- A login whose hash was upgraded leaves the upgraded hash. -/
def UpgradesStay (lib : BcryptLib) : Prop :=
  ∀ init ops r c, (acctRun lib ⟨init, init, []⟩ ops).db = some r → lib.cost r.password = some c → bcryptDefaultCost ≤ c →
    ∀ f : AcctRow → AcctRow, (∀ x, (f x).password = x.password) →
      ∀ m, (acctRun lib ⟨init, init, []⟩ ops).mem = some m →
        ∀ r', (acctRun lib ⟨init, init, []⟩ (ops ++ [.update (f m) true])).db = some r' → r'.password = r.password

/-- A server that checks user names and passwords and answers accordingly. -/
def Checks (ask : AuthReq → Option Nat) (valid : Str → Str → Bool) : Prop :=
  ∀ req, ask req = some 200 ↔ ∃ h u p, req.authorization = some h ∧ basicCreds h = some (u, p) ∧ valid u p = true

/-- The property of the statement, for the HTTP authenticator. -/
def HttpFaithful : Prop :=
  ∀ ask valid url u p, Checks ask valid → (httpAuth ask url u p = .ok ↔ valid u p = true)

end Verif.Spec
