import Verif.Props.AccountUpdate
import Verif.Proof.Util

/-! # C101: what the creation of an account does, and turning off a password -/

namespace Verif.Props
open Verif.Model Verif.Spec Verif.Proof

/-- A setting of a new account. -/
inductive NewAcctSetting
  | username (v : Str)
  | password (v : Str)
  | noPassword
  | nick (v : Str)
  | realname (v : Str)
  | admin
  | disabled
  | maxNetworks (v : Int)
  deriving DecidableEq, Repr

/-- How it is given to the service. -/
def NewAcctSetting.words : NewAcctSetting → List Str
  | .username v => [b!"-username", v]
  | .password v => [b!"-password", v]
  | .noPassword => [b!"-disable-password"]
  | .nick v => [b!"-nick", v]
  | .realname v => [b!"-realname", v]
  | .admin => [b!"-admin"]
  | .disabled => [b!"-enabled=false"]
  | .maxNetworks v => [b!"-max-networks", itoaInt v]

/-- Numbers fit in the type of the flag. -/
def NewAcctSetting.InRange : NewAcctSetting → Prop
  | .maxNetworks v => -(2 ^ 63) ≤ v ∧ v < 2 ^ 63
  | _ => True

/-- The password of the new account, hashed: it must be given or be turned off, and not both. -/
def newPassword (hash : Str → Option Str) (ss : List NewAcctSetting) : Option Str :=
  match (lastGiven (fun | .password v => some v | _ => none) ss).getD [], ss.contains .noPassword with
  | [], true => some []
  | c :: pw, false => hash (c :: pw)
  | _, _ => none

/-- The new account that settings describe, and its name: the last value of a setting counts; usually an account is enabled,
not an administrator's, and has no limit on its networks. -/
def newAccount (hash : Str → Option Str) (ss : List NewAcctSetting) : Option (Str × Account) :=
  match (lastGiven (fun | .username v => some v | _ => none) ss).getD [], newPassword hash ss with
  | c :: name, some pw => some (c :: name, {
      password := pw
      nick := (lastGiven (fun | .nick v => some v | _ => none) ss).getD []
      realname := (lastGiven (fun | .realname v => some v | _ => none) ss).getD []
      admin := ss.contains .admin
      enabled := !ss.contains .disabled
      maxNetworks := (lastGiven (fun | .maxNetworks v => some v | _ => none) ss).getD (-1) })
  | _, _ => none

/-! ## Proofs -/

private def setNew (f : CreateFlags) : NewAcctSetting → CreateFlags
  | .username v => { f with username := v }
  | .password v => { f with password := v }
  | .noPassword => { f with disablePassword := true }
  | .nick v => { f with nick := v }
  | .realname v => { f with realname := v }
  | .admin => { f with admin := true }
  | .disabled => { f with enabled := false }
  | .maxNetworks v => { f with maxNetworks := v }

private theorem parse_new1 (s : NewAcctSetting) (hr : s.InRange) (args : List Str) (st : CreateFlags) :
    parseFlags createFormal (s.words ++ args) st = parseFlags createFormal args (setNew st s) := by
  cases s with
  | username v => exact parseFlags_value createFormal b!"username" v args st _ _ (by decide) (by decide) (by decide) rfl rfl rfl
  | password v => exact parseFlags_value createFormal b!"password" v args st _ _ (by decide) (by decide) (by decide) rfl rfl rfl
  | noPassword => exact parseFlags_bool createFormal b!"disable-password" args st _ _ (by decide) (by decide) (by decide) rfl rfl rfl
  | nick v => exact parseFlags_value createFormal b!"nick" v args st _ _ (by decide) (by decide) (by decide) rfl rfl rfl
  | realname v => exact parseFlags_value createFormal b!"realname" v args st _ _ (by decide) (by decide) (by decide) rfl rfl rfl
  | admin => exact parseFlags_bool createFormal b!"admin" args st _ _ (by decide) (by decide) (by decide) rfl rfl rfl
  | disabled => show parseFlags createFormal (b!"-enabled=false" :: args) st = _; rw [parseFlags.eq_def]; rfl
  | maxNetworks v =>
    exact parseFlags_value createFormal b!"max-networks" (itoaInt v) args st _ _ (by decide) (by decide) (by decide) rfl rfl
      (by simp only [parseInt64_itoaInt v hr.1 hr.2]; rfl)

private theorem parse_new (ss : List NewAcctSetting) (hr : ∀ s ∈ ss, s.InRange) : ∀ st : CreateFlags,
    parseFlags createFormal (ss.flatMap NewAcctSetting.words) st = some (ss.foldl setNew st, []) := by
  induction ss with
  | nil => intro st; rw [parseFlags.eq_def]; rfl
  | cons s ss ih =>
    intro st
    rw [List.flatMap_cons, parse_new1 s (hr s (by simp)), ih (fun x hx => hr x (by simp [hx]))]
    rfl

private theorem new_flags (ss : List NewAcctSetting) : ss.foldl setNew ⟨[], [], false, [], [], false, true, -1⟩ =
    { username := (lastGiven (fun | .username v => some v | _ => none) ss).getD []
      password := (lastGiven (fun | .password v => some v | _ => none) ss).getD []
      disablePassword := ss.contains .noPassword
      nick := (lastGiven (fun | .nick v => some v | _ => none) ss).getD []
      realname := (lastGiven (fun | .realname v => some v | _ => none) ss).getD []
      admin := ss.contains .admin
      enabled := !ss.contains .disabled
      maxNetworks := (lastGiven (fun | .maxNetworks v => some v | _ => none) ss).getD (-1) } := by
  induction ss using snocInd with
  | nil => rfl
  | snoc ss s ih =>
    rw [List.foldl_append, ih]
    simp only [List.foldl_cons, List.foldl_nil, lastGiven_snoc]
    cases s <;> simp [setNew]

/-! ## Theorems -/

/-- C101: `user create` by an administrator adds the account that the settings describe and changes no other; without a
name or with neither or both of a password and none, or when there is such an account, it is refused and changes nothing. -/
theorem C101_user_create (lib : AcctLib) (order : List (Str × SvcCmd) → List (Str × SvcCmd)) (by_ : Option Str) (users : Accounts)
    (ss : List NewAcctSetting) (hr : ∀ s ∈ ss, s.InRange) (dbOk : Bool) :
    serviceStep lib order ⟨by_, true⟩ users (b!"user" :: b!"create" :: ss.flatMap NewAcctSetting.words) dbOk =
      match newAccount lib.hash ss with
      | none => (users, .refused)
      | some (name, a) =>
        if GoMap.get users name = none ∧ dbOk = true then (GoMap.set users name a, .done) else (users, .refused) := by
  unfold serviceStep
  rw [(run_admin order by_ _).1]
  dsimp only
  unfold handleUserCreate
  rw [parse_new ss hr, new_flags]
  dsimp only
  unfold newAccount newPassword
  generalize (lastGiven (fun | NewAcctSetting.username v => some v | _ => none) ss).getD [] = name
  generalize (lastGiven (fun | NewAcctSetting.password v => some v | _ => none) ss).getD [] = pw
  generalize ss.contains NewAcctSetting.noPassword = off
  rw [if_neg (by simp)]
  cases name with
  | nil => simp
  | cons c name =>
    rw [if_neg (by simp)]
    cases pw with
    | nil =>
      cases off with
      | false => simp
      | true =>
        simp only [ne_eq, not_true_eq_false, false_and, if_false, if_true, Bool.true_eq_false, and_false]
        cases hg : GoMap.get users (c :: name) <;> cases dbOk <;> simp [Account.new, hg]
    | cons d pw =>
      cases off with
      | true => simp
      | false =>
        simp only [Bool.false_eq_true, and_false, if_false, reduceCtorEq, false_and]
        cases lib.hash (d :: pw) with
        | none => rfl
        | some h => cases hg : GoMap.get users (c :: name) <;> cases dbOk <;> simp [Account.new, hg]

/-- C101: `user update -disable-password` turns off the password of one's own account, or of another one if its name is
given by an administrator; nothing else changes.  Together with a new password it is refused. -/
theorem C101_password_off (lib : AcctLib) (order : List (Str × SvcCmd) → List (Str × SvcCmd)) (name : Str) (users : Accounts)
    (a : Account) (ha : GoMap.get users name = some a) (hn : name ≠ []) (hd : hasPrefix b!"-" name = false) :
    (∀ adm, serviceStep lib order ⟨some name, adm⟩ users [b!"user", b!"update", b!"-disable-password"] true =
      (GoMap.set users name { a with password := [] }, .done)) ∧
    (∀ by_, by_ ≠ some name → serviceStep lib order ⟨by_, true⟩ users [b!"user", b!"update", name, b!"-disable-password"] true =
      (GoMap.set users name { a with password := [] }, .done)) ∧
    ∀ ctx pw db, serviceStep lib order ctx users [b!"user", b!"update", name, b!"-password", pw, b!"-disable-password"] db =
      (users, .refused) := by
  have hp : ∀ st : UpdateFlags, parseFlags updateFormal [b!"-disable-password"] st = some ({ st with disablePassword := true }, []) := by
    intro st
    rw [parseFlags_bool updateFormal b!"disable-password" [] st { st with disablePassword := true } _ (by decide) (by decide) (by decide)
      rfl rfl rfl, parseFlags.eq_def]
  have hpop : ∀ args, popArg (name :: args) = (name, args) := by
    intro args
    unfold popArg
    dsimp only
    rw [hd]; rfl
  refine ⟨?_, ?_, ?_⟩
  · intro adm
    unfold serviceStep
    rw [run_update]
    dsimp only
    unfold handleUserUpdate
    have : popArg [b!"-disable-password"] = ([], [b!"-disable-password"]) := rfl
    rw [this]
    dsimp only
    rw [hp]
    simp [UpdateFlags.empty, updateAccount, ha, applyOwnUpdate]
  · intro by_ hne
    unfold serviceStep
    rw [run_update]
    dsimp only
    unfold handleUserUpdate
    rw [hpop]
    dsimp only
    rw [hp]
    simp [UpdateFlags.empty, updateAccount, ha, applyOtherUpdate, hn, hne]
  · intro ctx pw db
    unfold serviceStep
    rw [run_update]
    dsimp only
    unfold handleUserUpdate
    rw [hpop]
    dsimp only
    rw [parseFlags_value updateFormal b!"password" pw [b!"-disable-password"] UpdateFlags.empty
      { UpdateFlags.empty with password := some pw } _ (by decide) (by decide) (by decide) rfl rfl rfl, hp]
    simp [UpdateFlags.empty, hn]

example : newAccount (fun p => some (104 :: p)) [.username b!"al", .password b!"x", .admin, .password b!"pw", .maxNetworks 3] =
    some (b!"al", ⟨b!"hpw", [], [], true, true, 3⟩) := by decide

example : newAccount some [.username b!"al", .password b!"x", .noPassword] = none ∧ newAccount some [.username b!"al"] = none ∧
    newAccount some [.username b!"al", .noPassword, .disabled] = some (b!"al", ⟨[], [], [], false, false, -1⟩) := by decide

end Verif.Props
