import Verif.Props.Service
import Verif.Proof.GoNum
import Verif.Proof.Flags

/-! # C40: what an update of an account does -/

namespace Verif.Props
open Verif.Model Verif.Spec Verif.Proof

/-- A setting of an account. -/
inductive AcctSetting
  | password (v : Str)
  | nick (v : Str)
  | realname (v : Str)
  | admin (v : Bool)
  | enabled (v : Bool)
  | maxNetworks (v : Int)
  deriving DecidableEq, Repr

/-- How a setting is given to the service. -/
def AcctSetting.words : AcctSetting → List Str
  | .password v => [b!"-password", v]
  | .nick v => [b!"-nick", v]
  | .realname v => [b!"-realname", v]
  | .admin v => [b!"-admin", boolWord v]
  | .enabled v => [b!"-enabled", boolWord v]
  | .maxNetworks v => [b!"-max-networks", itoaInt v]

/-- What a setting means; passwords are kept hashed. -/
def AcctSetting.effect (hash : Str → Str) (a : Account) : AcctSetting → Account
  | .password v => { a with password := hash v }
  | .nick v => { a with nick := v }
  | .realname v => { a with realname := v }
  | .admin v => { a with admin := v }
  | .enabled v => { a with enabled := v }
  | .maxNetworks v => { a with maxNetworks := v }

/-- The settings a user may change of their own account. -/
def AcctSetting.own : AcctSetting → Bool
  | .password _ | .nick _ | .realname _ => true
  | _ => false

/-- The settings an administrator may change of another account. -/
def AcctSetting.ofOther : AcctSetting → Bool
  | .nick _ | .realname _ => false
  | _ => true

/-- Numbers fit in the type of the flag. -/
def AcctSetting.InRange : AcctSetting → Prop
  | .maxNetworks v => -(2 ^ 63) ≤ v ∧ v < 2 ^ 63
  | _ => True

private def setFlag (f : UpdateFlags) : AcctSetting → UpdateFlags
  | .password v => { f with password := some v }
  | .nick v => { f with nick := some v }
  | .realname v => { f with realname := some v }
  | .admin v => { f with admin := some v }
  | .enabled v => { f with enabled := some v }
  | .maxNetworks v => { f with maxNetworks := some v }

private theorem parse_setting (s : AcctSetting) (hr : s.InRange) (args : List Str) (st : UpdateFlags) :
    parseFlags updateFormal (s.words ++ args) st = parseFlags updateFormal args (setFlag st s) := by
  cases s with
  | password v => exact parseFlags_value updateFormal b!"password" v args st _ _ (by decide) (by decide) (by decide) rfl rfl rfl
  | nick v => exact parseFlags_value updateFormal b!"nick" v args st _ _ (by decide) (by decide) (by decide) rfl rfl rfl
  | realname v => exact parseFlags_value updateFormal b!"realname" v args st _ _ (by decide) (by decide) (by decide) rfl rfl rfl
  | admin v =>
    exact parseFlags_value updateFormal b!"admin" (boolWord v) args st _ _ (by decide) (by decide) (by decide) rfl rfl
      (by simp only [parseBool_word]; rfl)
  | enabled v =>
    exact parseFlags_value updateFormal b!"enabled" (boolWord v) args st _ _ (by decide) (by decide) (by decide) rfl rfl
      (by simp only [parseBool_word]; rfl)
  | maxNetworks v =>
    exact parseFlags_value updateFormal b!"max-networks" (itoaInt v) args st _ _ (by decide) (by decide) (by decide) rfl rfl
      (by simp only [parseInt64_itoaInt v hr.1 hr.2]; rfl)

private theorem parse_settings (ss : List AcctSetting) (hr : ∀ s ∈ ss, s.InRange) : ∀ st : UpdateFlags,
    parseFlags updateFormal (ss.flatMap AcctSetting.words) st = some (ss.foldl setFlag st, []) := by
  induction ss with
  | nil => intro st; rw [parseFlags.eq_def]; rfl
  | cons s ss ih =>
    intro st
    rw [List.flatMap_cons, parse_setting s (hr s (by simp)), ih (fun x hx => hr x (by simp [hx]))]
    rfl

private theorem popArg_settings (ss : List AcctSetting) :
    popArg (ss.flatMap AcctSetting.words) = ([], ss.flatMap AcctSetting.words) := by
  cases ss with
  | nil => rfl
  | cons s ss => cases s <;> rfl

/-- The account that a set of flags leads to. -/
private def flagAcct (hash : Str → Str) (f : UpdateFlags) (a : Account) : Account :=
  { a with
    password := (f.password.map hash).getD a.password
    nick := f.nick.getD a.nick
    realname := f.realname.getD a.realname
    admin := f.admin.getD a.admin
    enabled := f.enabled.getD a.enabled
    maxNetworks := f.maxNetworks.getD a.maxNetworks }

private theorem flagAcct_fold (hash : Str → Str) (a : Account) (ss : List AcctSetting) : ∀ f : UpdateFlags,
    flagAcct hash (ss.foldl setFlag f) a = ss.foldl (AcctSetting.effect hash) (flagAcct hash f a) := by
  induction ss with
  | nil => intro f; rfl
  | cons s ss ih =>
    intro f
    rw [List.foldl_cons, List.foldl_cons, ih]
    congr 1
    cases s <;> rfl

private theorem own_flags (ss : List AcctSetting) (h : ∀ s ∈ ss, s.own = true) : ∀ f : UpdateFlags,
    (ss.foldl setFlag f).admin = f.admin ∧ (ss.foldl setFlag f).enabled = f.enabled ∧
    (ss.foldl setFlag f).maxNetworks = f.maxNetworks ∧ (ss.foldl setFlag f).disablePassword = f.disablePassword := by
  induction ss with
  | nil => intro f; exact ⟨rfl, rfl, rfl, rfl⟩
  | cons s ss ih =>
    intro f
    rw [List.foldl_cons]
    obtain ⟨h1, h2, h3, h4⟩ := ih (fun x hx => h x (by simp [hx])) (setFlag f s)
    rw [h1, h2, h3, h4]
    have := h s (by simp)
    cases s <;> first | exact ⟨rfl, rfl, rfl, rfl⟩ | cases this

private theorem other_flags (ss : List AcctSetting) (h : ∀ s ∈ ss, s.ofOther = true) : ∀ f : UpdateFlags,
    (ss.foldl setFlag f).nick = f.nick ∧ (ss.foldl setFlag f).realname = f.realname ∧
    (ss.foldl setFlag f).disablePassword = f.disablePassword := by
  induction ss with
  | nil => intro f; exact ⟨rfl, rfl, rfl⟩
  | cons s ss ih =>
    intro f
    rw [List.foldl_cons]
    obtain ⟨h1, h2, h3⟩ := ih (fun x hx => h x (by simp [hx])) (setFlag f s)
    rw [h1, h2, h3]
    have := h s (by simp)
    cases s <;> first | exact ⟨rfl, rfl, rfl⟩ | cases this

private theorem get_user (order : List (Str × SvcCmd) → List (Str × SvcCmd)) (w : Str) (ps : List Str)
    (us : SvcCmd) (h1 : svcFind order serviceCommands b!"user" = .ok us) (hch : us.children ≠ [])
    (c : SvcCmd) (h2 : svcFind order us.children w = .ok c) (hc : c.children = []) :
    svcGet order serviceCommands (b!"user" :: w :: ps) = .ok (c, ps) := by
  rw [svcGet.eq_def]
  dsimp only
  rw [h1]
  dsimp only
  rw [if_neg (by simp only [reduceCtorEq, false_or]; exact hch), svcGet.eq_def]
  dsimp only
  rw [h2]
  dsimp only
  rw [if_pos (Or.inr hc)]

theorem run_update (order : List (Str × SvcCmd) → List (Str × SvcCmd)) (ctx : SvcCtx) (ps : List Str) :
    handleServiceCommand order ctx (b!"user" :: b!"update" :: ps) = .run .userUpdate ps := by
  unfold handleServiceCommand
  rw [get_user order b!"update" ps _ rfl (by simp [SvcCmd.children]) (svcLeaf .userUpdate false true) rfl rfl]
  rfl

theorem run_admin (order : List (Str × SvcCmd) → List (Str × SvcCmd)) (u : Option Str) (ps : List Str) :
    handleServiceCommand order ⟨u, true⟩ (b!"user" :: b!"create" :: ps) = .run .userCreate ps ∧
    handleServiceCommand order ⟨u, true⟩ (b!"user" :: b!"update" :: ps) = .run .userUpdate ps ∧
    handleServiceCommand order ⟨u, true⟩ (b!"user" :: b!"delete" :: ps) = .run .userDelete ps ∧
    handleServiceCommand order ⟨u, true⟩ (b!"user" :: b!"run" :: ps) = .run .userRun ps := by
  refine ⟨?_, run_update _ _ _, ?_, ?_⟩
  · unfold handleServiceCommand
    rw [get_user order b!"create" ps _ rfl (by simp [SvcCmd.children]) (svcLeaf .userCreate true true) rfl rfl]
    rfl
  · unfold handleServiceCommand
    rw [get_user order b!"delete" ps _ rfl (by simp [SvcCmd.children]) (svcLeaf .userDelete false true) rfl rfl]
    rfl
  · unfold handleServiceCommand
    rw [get_user order b!"run" ps _ rfl (by simp [SvcCmd.children]) (svcLeaf .userRun true true) rfl rfl]
    rfl

/-- The update of one's own account with any list of settings does exactly what the settings say, one after
the other, to this account only. -/
theorem C40_own_update (lib : AcctLib) (hash : Str → Str) (hh : ∀ v, lib.hash v = some (hash v))
    (order : List (Str × SvcCmd) → List (Str × SvcCmd)) (name : Str) (adm : Bool) (users : Accounts) (a : Account)
    (ha : GoMap.get users name = some a) (ss : List AcctSetting) (hs : ∀ s ∈ ss, s.own = true) :
    serviceStep lib order ⟨some name, adm⟩ users (b!"user" :: b!"update" :: ss.flatMap AcctSetting.words) true
      = (GoMap.set users name (ss.foldl (AcctSetting.effect hash) a), .done) := by
  have hr : ∀ s ∈ ss, s.InRange := by
    intro s h
    have := hs s h
    cases s <;> first | trivial | cases this
  unfold serviceStep
  rw [run_update]
  dsimp only
  unfold handleUserUpdate
  rw [popArg_settings]
  dsimp only
  rw [parse_settings ss hr]
  dsimp only
  obtain ⟨h1, h2, h3, h4⟩ := own_flags ss hs .empty
  have hacct := flagAcct_fold hash a ss .empty
  have he : flagAcct hash .empty a = a := rfl
  rw [he] at hacct
  generalize ss.foldl setFlag .empty = f at h1 h2 h3 h4 hacct ⊢
  simp only [UpdateFlags.empty] at h1 h2 h3 h4
  rw [if_neg (by simp), if_neg (by simp), if_neg (by rw [h4]; simp), if_neg (by simp), h1, h2, h3, ← hacct]
  simp only [Option.isSome_none, Bool.false_eq_true, if_false, Bool.false_and]
  cases hp : f.password with
  | none =>
    simp only [Option.map_none, updateAccount, Option.getD_some, ha, if_true]
    simp [applyOwnUpdate, flagAcct, h1, h2, h3, h4, hp]
  | some v =>
    simp only [Option.map_some, hh, updateAccount, Option.getD_some, ha, if_true]
    simp [applyOwnUpdate, flagAcct, h1, h2, h3, h4, hp]

/-- The update of somebody else's account by an administrator does exactly what the settings say. -/
theorem C40_other_update (lib : AcctLib) (hash : Str → Str) (hh : ∀ v, lib.hash v = some (hash v))
    (order : List (Str × SvcCmd) → List (Str × SvcCmd)) (user : Option Str) (name : Str) (users : Accounts)
    (a : Account) (ha : GoMap.get users name = some a) (hn : name ≠ []) (hd : hasPrefix b!"-" name = false)
    (hne : user ≠ some name) (ss : List AcctSetting) (hs : ∀ s ∈ ss, s.ofOther = true) (hr : ∀ s ∈ ss, s.InRange) :
    serviceStep lib order ⟨user, true⟩ users (b!"user" :: b!"update" :: name :: ss.flatMap AcctSetting.words) true
      = (GoMap.set users name (ss.foldl (AcctSetting.effect hash) a), .done) := by
  unfold serviceStep
  rw [run_update]
  dsimp only
  unfold handleUserUpdate
  have hpop : popArg (name :: ss.flatMap AcctSetting.words) = (name, ss.flatMap AcctSetting.words) := by
    unfold popArg
    dsimp only
    rw [hd]; rfl
  rw [hpop]
  dsimp only
  rw [parse_settings ss hr]
  dsimp only
  obtain ⟨h1, h2, h3⟩ := other_flags ss hs .empty
  have hacct := flagAcct_fold hash a ss .empty
  have he : flagAcct hash .empty a = a := rfl
  rw [he] at hacct
  generalize ss.foldl setFlag .empty = f at h1 h2 h3 hacct ⊢
  simp only [UpdateFlags.empty] at h1 h2 h3
  rw [if_neg (by simp), if_neg (by intro h; exact hn h.1), if_neg (by rw [h3]; simp), if_pos ⟨hn, hne⟩, h1, h2, h3,
    ← hacct]
  simp only [Option.isSome_none, Bool.false_eq_true, if_false, Bool.not_true]
  cases hp : f.password with
  | none =>
    simp only [Option.map_none, updateAccount, ha, if_true]
    simp [applyOtherUpdate, flagAcct, h1, h2, hp]
  | some v =>
    simp only [Option.map_some, hh, updateAccount, ha, if_true]
    simp [applyOtherUpdate, flagAcct, h1, h2, hp]

/-- On the administration socket every command reserved to administrators is available. -/
theorem C39_admin_socket (st : SvcState) : (lineCtx st .adminSocket).admin = true ∧
    ∀ order : List (Str × SvcCmd) → List (Str × SvcCmd), ∀ params,
      handleServiceCommand order (lineCtx st .adminSocket) (b!"user" :: b!"create" :: params) = .run .userCreate params ∧
      handleServiceCommand order (lineCtx st .adminSocket) (b!"user" :: b!"update" :: params) = .run .userUpdate params ∧
      handleServiceCommand order (lineCtx st .adminSocket) (b!"user" :: b!"delete" :: params) = .run .userDelete params ∧
      handleServiceCommand order (lineCtx st .adminSocket) (b!"user" :: b!"run" :: params) = .run .userRun params :=
  ⟨rfl, fun order params => run_admin order _ params⟩

example : (lineCtx ⟨acctEx, []⟩ .adminSocket).user = none := rfl

/-- Settings applied in order: the last nickname wins, the password is stored hashed. -/
example : (∀ v, acctLibEx.hash v = some (b!"h" ++ v)) ∧
    GoMap.get (serviceStep acctLibEx id ⟨some b!"bob", false⟩ acctEx
      (b!"user" :: b!"update" :: [AcctSetting.nick b!"b", .password b!"s", .nick b!"bo"].flatMap AcctSetting.words)
      true).1 b!"bob" = (GoMap.get acctEx b!"bob").map (fun a => { a with nick := b!"bo", password := b!"hs" }) ∧
    GoMap.get acctEx b!"bob" ≠ none := by
  refine ⟨fun v => rfl, ?_, ?_⟩ <;> decide +kernel

end Verif.Props
