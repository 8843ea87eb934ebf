import Verif.Model.Service
import Verif.Proof.GoMap
import Verif.Proof.GoStr

/-! # C39: service command lookup is deterministic and gated; C40: account commands respect authority -/

namespace Verif.Props
open Verif.Model Verif.Proof

/-! ## Specification -/

/-- A word designates a command of a set: its name, or else a prefix of the name of this command only. -/
def Designates (cmds : List (Str × SvcCmd)) (word : Str) (c : SvcCmd) : Prop :=
  (word, c) ∈ cmds ∨
  ((∀ e ∈ cmds, e.1 ≠ word) ∧ ∃ name, (name, c) ∈ cmds ∧ word <+: name ∧
    ∀ e ∈ cmds, word <+: e.1 → e.1 = name)

/-- Words designate a command: each word designates a command of the set of the previous one, as long as
there are words and the command has a set. -/
inductive DesignatesPath : List (Str × SvcCmd) → List Str → SvcCmd → List Str → Prop
  | stop {cmds w rest c} : Designates cmds w c → (rest = [] ∨ c.children = []) →
      DesignatesPath cmds (w :: rest) c rest
  | down {cmds w rest c c' params} : Designates cmds w c → rest ≠ [] → c.children ≠ [] →
      DesignatesPath c.children rest c' params → DesignatesPath cmds (w :: rest) c' params

/-- No two commands of a set have the same name: sets are maps. -/
inductive UniqueNames : List (Str × SvcCmd) → Prop
  | mk {cmds} : (cmds.map (·.1)).Nodup → (∀ e ∈ cmds, UniqueNames e.2.children) → UniqueNames cmds

/-- An iteration of maps in whatever order. -/
def AnyOrder (order : List (Str × SvcCmd) → List (Str × SvcCmd)) : Prop := ∀ l, (order l).Perm l

/-- The commands reserved to administrators (doc/soju.1.scd, and service.go). -/
def adminOnly : List SvcHandler := [.userStatus, .userCreate, .userRun, .serverStatus, .serverNotice, .serverDebug]

/-- The commands that act on a user's own networks and channels. -/
def userScoped : List SvcHandler := [.networkCreate, .networkStatus, .networkUpdate, .networkDelete,
  .networkQuote, .certfpGenerate, .certfpFingerprints, .saslStatus, .saslSetPlain, .saslReset,
  .channelStatus, .channelCreate, .channelUpdate, .channelDelete]

/-- The two accounts have the same rights: administrator, enabled, number of networks. -/
def SameRights (a b : Account) : Prop :=
  a.admin = b.admin ∧ a.enabled = b.enabled ∧ a.maxNetworks = b.maxNetworks

/-- The same account or none, up to what its owner may change. -/
def SameRightsOpt : Option Account → Option Account → Prop
  | some a, some b => SameRights a b
  | none, none => True
  | _, _ => False

/-! ## Lemmas -/

private theorem prefixLoop_ok (name : Str) : ∀ (l : List (Str × SvcCmd)) (cmd : Option SvcCmd),
    prefixLoop name l cmd =
      match cmd, l.filter (fun e => hasPrefix name e.1) with
      | cmd, [] => .ok cmd
      | none, [e] => .ok (some e.2)
      | _, _ => .error .ambiguous := by
  intro l
  induction l with
  | nil => intro cmd; cases cmd <;> rfl
  | cons e l ih =>
    obtain ⟨k, c⟩ := e
    intro cmd
    unfold prefixLoop
    by_cases h : hasPrefix name k = true
    · rw [if_neg (by simp [h]), List.filter_cons_of_pos (by simp [h])]
      cases cmd with
      | some x => simp
      | none =>
        simp only [Option.isSome_none, Bool.false_eq_true, if_false]
        rw [ih]
        cases l.filter (fun e => hasPrefix name e.1) with
        | nil => rfl
        | cons a r => cases r <;> rfl
    · have h' : hasPrefix name k = false := by simpa using h
      rw [if_pos h', List.filter_cons_of_neg (by simp [h']), ih]

/-- The result of a lookup in one set, in terms of the entries a word is a prefix of. -/
private theorem svcFind_eq (order : List (Str × SvcCmd) → List (Str × SvcCmd)) (cmds : List (Str × SvcCmd))
    (name : Str) : svcFind order cmds name =
      match GoMap.get cmds name with
      | some c => .ok c
      | none =>
        match (order cmds).filter (fun e => hasPrefix name e.1) with
        | [] => .error .notFound
        | [e] => .ok e.2
        | _ => .error .ambiguous := by
  unfold svcFind
  rw [prefixLoop_ok]
  cases GoMap.get cmds name with
  | some c => rfl
  | none =>
    dsimp only
    cases h : (order cmds).filter (fun e => hasPrefix name e.1) with
    | nil => rfl
    | cons e l => cases l <;> rfl

private theorem svcFind_order {order : List (Str × SvcCmd) → List (Str × SvcCmd)} (ho : AnyOrder order)
    (cmds : List (Str × SvcCmd)) (name : Str) : svcFind order cmds name = svcFind id cmds name := by
  rw [svcFind_eq, svcFind_eq]
  cases GoMap.get cmds name with
  | some c => rfl
  | none =>
    dsimp only
    have hp := (ho cmds).filter (fun e => hasPrefix name e.1)
    simp only [id] at hp ⊢
    cases h : cmds.filter (fun e => hasPrefix name e.1) with
    | nil => rw [h] at hp; rw [List.Perm.eq_nil hp]
    | cons e l =>
      cases l with
      | nil => rw [h] at hp; rw [List.Perm.eq_singleton hp]
      | cons e' l =>
        rw [h] at hp
        have hl := hp.length_eq
        cases h2 : (order cmds).filter (fun e => hasPrefix name e.1) with
        | nil => rw [h2] at hl; simp at hl
        | cons a r =>
          cases r with
          | nil => rw [h2] at hl; simp at hl
          | cons b r => rfl

private theorem svcGet_order {order : List (Str × SvcCmd) → List (Str × SvcCmd)} (ho : AnyOrder order) :
    ∀ (words : List Str) (cmds : List (Str × SvcCmd)), svcGet order cmds words = svcGet id cmds words := by
  intro words
  induction words with
  | nil => intro cmds; rfl
  | cons w words ih =>
    intro cmds
    unfold svcGet
    rw [svcFind_order ho]
    cases svcFind id cmds w with
    | error e => rfl
    | ok c =>
      dsimp only
      split
      · rfl
      · exact ih _

private theorem mem_of_prefix_nodup {cmds : List (Str × SvcCmd)} (nd : (cmds.map (·.1)).Nodup) {word : Str}
    {c : SvcCmd} {name : Str} (hm : (name, c) ∈ cmds) (hp : word <+: name)
    (hu : ∀ e ∈ cmds, word <+: e.1 → e.1 = name) :
    cmds.filter (fun e => hasPrefix word e.1) = [(name, c)] := by
  induction cmds with
  | nil => cases hm
  | cons e cmds ih =>
    rw [List.map_cons, List.nodup_cons] at nd
    rcases List.mem_cons.1 hm with rfl | hm'
    · rw [List.filter_cons_of_pos (by simpa [hasPrefix, List.isPrefixOf_iff_prefix] using hp)]
      congr 1
      rw [List.filter_eq_nil_iff]
      intro e he hpe
      have : word <+: e.1 := by simpa [hasPrefix, List.isPrefixOf_iff_prefix] using hpe
      have := hu e (List.mem_cons_of_mem _ he) this
      exact nd.1 (List.mem_map.2 ⟨e, he, this⟩)
    · have hne : hasPrefix word e.1 = false := by
        cases h : hasPrefix word e.1 with
        | false => rfl
        | true =>
          have : word <+: e.1 := by simpa [hasPrefix, List.isPrefixOf_iff_prefix] using h
          have := hu e List.mem_cons_self this
          exact absurd (List.mem_map.2 ⟨_, hm', this.symm⟩) nd.1
      rw [List.filter_cons_of_neg (by simp [hne])]
      exact ih nd.2 hm' (fun e he => hu e (List.mem_cons_of_mem _ he))

private theorem svcFind_iff {cmds : List (Str × SvcCmd)} (nd : (cmds.map (·.1)).Nodup) (w : Str) (c : SvcCmd) :
    svcFind id cmds w = .ok c ↔ Designates cmds w c := by
  rw [svcFind_eq]
  cases hg : GoMap.get cmds w with
  | some c' =>
    dsimp only
    have hm := mget_some_mem hg
    constructor
    · intro h; cases h; exact Or.inl hm
    · rintro (h | ⟨h, _⟩)
      · rw [mget_of_mem nd h] at hg; cases hg; rfl
      · exact absurd rfl (h _ hm)
  | none =>
    dsimp only [id]
    have hn := mget_none_iff.1 hg
    constructor
    · intro h
      right
      refine ⟨fun e he heq => hn (List.mem_map.2 ⟨e, he, heq⟩), ?_⟩
      cases hf : cmds.filter (fun e => hasPrefix w e.1) with
      | nil => rw [hf] at h; cases h
      | cons e l =>
        cases l with
        | cons e' l => rw [hf] at h; cases h
        | nil =>
          rw [hf] at h; cases h
          have hm : e ∈ cmds.filter (fun e => hasPrefix w e.1) := by rw [hf]; exact List.mem_cons_self
          obtain ⟨hm1, hm2⟩ := List.mem_filter.1 hm
          refine ⟨e.1, hm1, by simpa [hasPrefix, List.isPrefixOf_iff_prefix] using hm2, ?_⟩
          intro e' he' hp'
          have : e' ∈ cmds.filter (fun e => hasPrefix w e.1) := List.mem_filter.2 ⟨he', by
            simpa [hasPrefix, List.isPrefixOf_iff_prefix] using hp'⟩
          rw [hf] at this
          rw [List.mem_singleton.1 this]
    · rintro (h | ⟨_, name, hm, hp, hu⟩)
      · exact absurd (List.mem_map.2 ⟨_, h, rfl⟩) hn
      · rw [mem_of_prefix_nodup nd hm hp hu]

private theorem designates_mem {cmds : List (Str × SvcCmd)} {w : Str} {c : SvcCmd} (h : Designates cmds w c) :
    ∃ name, (name, c) ∈ cmds := by
  rcases h with h | ⟨_, name, h, _⟩
  · exact ⟨_, h⟩
  · exact ⟨_, h⟩

private theorem serviceCommands_unique : UniqueNames serviceCommands := by
  have leaf : ∀ h a g, UniqueNames (svcLeaf h a g).children := fun h a g => .mk (by simp [svcLeaf, SvcCmd.children])
    (by simp [svcLeaf, SvcCmd.children])
  refine .mk (by decide) ?_
  intro e he
  simp only [serviceCommands, List.mem_cons, List.not_mem_nil, or_false] at he
  rcases he with rfl | rfl | rfl | rfl | rfl | rfl | rfl
  · exact leaf _ _ _
  all_goals
    refine .mk (by decide) ?_
    intro e he
    simp only [SvcCmd.children, List.mem_cons, List.not_mem_nil, or_false] at he
    repeat' (rcases he with rfl | he)
    all_goals exact leaf _ _ _

/-- Every command of the table, at both levels. -/
private def allCommands : List SvcCmd :=
  serviceCommands.map (·.2) ++ serviceCommands.flatMap (fun e => e.2.children.map (·.2))

private theorem path_mem {ws : List Str} {c : SvcCmd} {ps : List Str}
    (h : DesignatesPath serviceCommands ws c ps) : c ∈ allCommands := by
  cases h with
  | stop hd _ =>
    obtain ⟨name, hm⟩ := designates_mem hd
    exact List.mem_append_left _ (List.mem_map.2 ⟨_, hm, rfl⟩)
  | down hd _ _ h2 =>
    obtain ⟨name, hm⟩ := designates_mem hd
    cases h2 with
    | stop hd2 _ =>
      obtain ⟨name2, hm2⟩ := designates_mem hd2
      exact List.mem_append_right _ (List.mem_flatMap.2 ⟨_, hm, List.mem_map.2 ⟨_, hm2, rfl⟩⟩)
    | down hd2 _ hch _ =>
      exfalso
      obtain ⟨name2, hm2⟩ := designates_mem hd2
      apply hch
      have : ∀ e ∈ serviceCommands, ∀ e2 ∈ e.2.children, e2.2.children = [] := by
        intro e he
        simp only [serviceCommands, List.mem_cons, List.not_mem_nil, or_false] at he
        rcases he with rfl | rfl | rfl | rfl | rfl | rfl | rfl
        all_goals
          intro e he
          simp only [SvcCmd.children, svcLeaf, List.mem_cons, List.not_mem_nil, or_false] at he
        all_goals first
          | (repeat' (rcases he with rfl | he)) <;> rfl
          | cases he
      exact this _ hm _ hm2

private theorem commands_gates : ∀ c ∈ allCommands, ∀ h, c.handle = some h →
    (h ∈ adminOnly → c.admin = true) ∧ (h ∈ userScoped → c.global = false) := by
  intro c hc h hh
  simp only [allCommands, serviceCommands, List.map_cons, List.map_nil, List.flatMap_cons, List.flatMap_nil,
    SvcCmd.children, svcLeaf, List.cons_append, List.nil_append, List.append_nil, List.mem_cons,
    List.not_mem_nil, or_false] at hc
  repeat' (rcases hc with rfl | hc)
  all_goals first
    | (subst hc; cases hh <;> decide)
    | (cases hh; decide)
    | cases hh

/-! ## C39 -/

/-- The lookup of a command finds exactly the command the words designate — a name goes before an
abbreviation, an abbreviation must be unambiguous — whatever the order in which the maps are iterated. -/
theorem C39_lookup (order : List (Str × SvcCmd) → List (Str × SvcCmd)) (ho : AnyOrder order)
    (cmds : List (Str × SvcCmd)) (hu : UniqueNames cmds) (words : List Str) (c : SvcCmd) (params : List Str) :
    svcGet order cmds words = .ok (c, params) ↔ DesignatesPath cmds words c params := by
  rw [svcGet_order ho]
  induction words generalizing cmds with
  | nil =>
    constructor
    · intro h; cases h
    · intro h; cases h
  | cons w words ih =>
    cases hu with
    | mk nd hch =>
    unfold svcGet
    constructor
    · intro h
      cases hf : svcFind id cmds w with
      | error e => rw [hf] at h; cases h
      | ok c1 =>
        rw [hf] at h
        dsimp only at h
        have hd := (svcFind_iff nd w c1).1 hf
        by_cases hst : words = [] ∨ c1.children = []
        · rw [if_pos hst] at h; cases h; exact .stop hd hst
        · rw [if_neg hst] at h
          obtain ⟨name, hm⟩ := designates_mem hd
          exact .down hd (fun e => hst (Or.inl e)) (fun e => hst (Or.inr e)) ((ih _ (hch _ hm)).1 h)
    · intro h
      cases h with
      | stop hd hst =>
        rw [(svcFind_iff nd w c).2 hd]
        dsimp only
        rw [if_pos hst]
      | @down _ _ _ c1 _ _ hd h1 h2 hp =>
        rw [(svcFind_iff nd w c1).2 hd]
        dsimp only
        obtain ⟨name, hm⟩ := designates_mem hd
        rw [if_neg (by rintro (h | h) <;> contradiction)]
        exact (ih _ (hch _ hm)).2 hp

example : (handleServiceCommand id ⟨some b!"bob", false⟩ [b!"net", b!"del", b!"libera"] =
    .run .networkDelete [b!"libera"]) ∧ UniqueNames serviceCommands :=
  ⟨by decide, serviceCommands_unique⟩

/-- The outcome of a command line does not depend on the order in which maps are iterated, errors
included. -/
theorem C39_order (order order' : List (Str × SvcCmd) → List (Str × SvcCmd)) (ho : AnyOrder order)
    (ho' : AnyOrder order') (ctx : SvcCtx) (words : List Str) :
    handleServiceCommand order ctx words = handleServiceCommand order' ctx words := by
  unfold handleServiceCommand
  rw [svcGet_order ho, svcGet_order ho']

example : AnyOrder List.reverse ∧ handleServiceCommand List.reverse ⟨none, true⟩ [b!"s"] =
    .refused .ambiguous := ⟨fun l => l.reverse_perm, by decide⟩

/-- An abbreviation of two commands is refused as ambiguous, unless it is itself a name. -/
theorem C39_ambiguous (order : List (Str × SvcCmd) → List (Str × SvcCmd)) (ho : AnyOrder order)
    (cmds : List (Str × SvcCmd)) (w : Str) (rest : List Str) (e e' : Str × SvcCmd)
    (he : e ∈ cmds) (he' : e' ∈ cmds) (hne : e.1 ≠ e'.1) (hp : w <+: e.1) (hp' : w <+: e'.1)
    (hx : ∀ x ∈ cmds, x.1 ≠ w) : svcGet order cmds (w :: rest) = .error .ambiguous := by
  rw [svcGet_order ho]
  unfold svcGet
  rw [svcFind_eq]
  have hn : GoMap.get cmds w = none := mget_none_iff.2 (fun h => by
    obtain ⟨x, hx1, hx2⟩ := List.mem_map.1 h
    exact hx x hx1 hx2)
  rw [hn]
  dsimp only [id]
  have m1 : e ∈ cmds.filter (fun e => hasPrefix w e.1) := List.mem_filter.2 ⟨he, by
    simpa [hasPrefix, List.isPrefixOf_iff_prefix] using hp⟩
  have m2 : e' ∈ cmds.filter (fun e => hasPrefix w e.1) := List.mem_filter.2 ⟨he', by
    simpa [hasPrefix, List.isPrefixOf_iff_prefix] using hp'⟩
  cases hf : cmds.filter (fun e => hasPrefix w e.1) with
  | nil => rw [hf] at m1; cases m1
  | cons a l =>
    cases l with
    | nil =>
      rw [hf] at m1 m2
      rw [List.mem_singleton.1 m1, List.mem_singleton.1 m2] at hne
      exact absurd rfl hne
    | cons b l => rfl

example : handleServiceCommand id ⟨some b!"bob", false⟩ [b!"network", b!"x"] = .refused .notFound ∧
    handleServiceCommand id ⟨some b!"bob", false⟩ [b!"sasl", b!"s"] = .refused .ambiguous := by decide

/-- Whatever the words: a command reserved to administrators runs only for an administrator, and a command
that acts on a user's networks or channels runs only for a user. -/
theorem C39_gated (order : List (Str × SvcCmd) → List (Str × SvcCmd)) (ho : AnyOrder order) (ctx : SvcCtx)
    (words : List Str) (h : SvcHandler) (params : List Str)
    (hr : handleServiceCommand order ctx words = .run h params) :
    (h ∈ adminOnly → ctx.admin = true) ∧ (h ∈ userScoped → ∃ u, ctx.user = some u) := by
  unfold handleServiceCommand at hr
  cases hg : svcGet order serviceCommands words with
  | error e => rw [hg] at hr; cases hr
  | ok cp =>
    obtain ⟨c, ps⟩ := cp
    rw [hg] at hr
    dsimp only at hr
    have hc := path_mem ((C39_lookup order ho _ serviceCommands_unique _ _ _).1 hg)
    split at hr
    · cases hr
    · next h1 =>
      split at hr
      · cases hr
      · next h2 =>
        cases hh : c.handle with
        | none => rw [hh] at hr; dsimp only at hr; split at hr <;> cases hr
        | some h' =>
          rw [hh] at hr
          cases hr
          obtain ⟨g1, g2⟩ := commands_gates c hc h hh
          constructor
          · intro hm
            have := g1 hm
            rw [this] at h1
            simpa using h1
          · intro hm
            have := g2 hm
            rw [this] at h2
            cases hu : ctx.user with
            | some u => exact ⟨u, rfl⟩
            | none => rw [hu] at h2; simp at h2

example : handleServiceCommand id ⟨some b!"bob", false⟩ [b!"user", b!"run", b!"eve", b!"help"] =
    .refused .mustBeAdmin ∧
  handleServiceCommand id ⟨none, true⟩ [b!"user", b!"run", b!"eve", b!"help"] =
    .run .userRun [b!"eve", b!"help"] ∧
  handleServiceCommand id ⟨none, true⟩ [b!"network", b!"status"] = .refused .mustBeUser := by decide

/-- Every command of the manual (doc/soju.1.scd, IRC SERVICE), as it is written. -/
def manualCommands : List (List Str × SvcHandler) := [
  ([b!"help"], .help),
  ([b!"network", b!"create"], .networkCreate), ([b!"network", b!"status"], .networkStatus),
  ([b!"network", b!"update"], .networkUpdate), ([b!"network", b!"delete"], .networkDelete),
  ([b!"network", b!"quote"], .networkQuote),
  ([b!"certfp", b!"generate"], .certfpGenerate), ([b!"certfp", b!"fingerprint"], .certfpFingerprints),
  ([b!"sasl", b!"status"], .saslStatus), ([b!"sasl", b!"set-plain"], .saslSetPlain), ([b!"sasl", b!"reset"], .saslReset),
  ([b!"user", b!"status"], .userStatus), ([b!"user", b!"create"], .userCreate), ([b!"user", b!"update"], .userUpdate),
  ([b!"user", b!"delete"], .userDelete), ([b!"user", b!"run"], .userRun),
  ([b!"channel", b!"status"], .channelStatus), ([b!"channel", b!"create"], .channelCreate),
  ([b!"channel", b!"update"], .channelUpdate), ([b!"channel", b!"delete"], .channelDelete),
  ([b!"server", b!"status"], .serverStatus), ([b!"server", b!"notice"], .serverNotice), ([b!"server", b!"debug"], .serverDebug)]

/-- Every command of the manual runs, with the words after its name, for everybody who may run it: an administrator if it is
reserved to them, a user if it acts on their networks. -/
theorem C39_allowed (order : List (Str × SvcCmd) → List (Str × SvcCmd)) (ctx : SvcCtx) (name : List Str) (h : SvcHandler)
    (hm : (name, h) ∈ manualCommands) (params : List Str) (h1 : h ∈ adminOnly → ctx.admin = true)
    (h2 : h ∈ userScoped → ctx.user.isSome = true) :
    handleServiceCommand order ctx (name ++ params) = .run h params := by
  obtain ⟨user, admin⟩ := ctx
  simp only [manualCommands, List.mem_cons, List.not_mem_nil, or_false, Prod.mk.injEq] at hm
  rcases hm with ⟨rfl, rfl⟩ | ⟨rfl, rfl⟩ | ⟨rfl, rfl⟩ | ⟨rfl, rfl⟩ | ⟨rfl, rfl⟩ | ⟨rfl, rfl⟩ | ⟨rfl, rfl⟩ | ⟨rfl, rfl⟩ | ⟨rfl, rfl⟩ |
    ⟨rfl, rfl⟩ | ⟨rfl, rfl⟩ | ⟨rfl, rfl⟩ | ⟨rfl, rfl⟩ | ⟨rfl, rfl⟩ | ⟨rfl, rfl⟩ | ⟨rfl, rfl⟩ | ⟨rfl, rfl⟩ | ⟨rfl, rfl⟩ | ⟨rfl, rfl⟩ |
    ⟨rfl, rfl⟩ | ⟨rfl, rfl⟩ | ⟨rfl, rfl⟩ | ⟨rfl, rfl⟩ <;>
    first
    | (have e := h1 (by decide); dsimp only at e; subst e; cases params <;> rfl)
    | (have e := h2 (by decide); dsimp only at e
       obtain ⟨u, rfl⟩ := Option.isSome_iff_exists.1 e
       cases params <;> rfl)
    | (cases params <;> rfl)

example : ([b!"certfp", b!"fingerprint"], SvcHandler.certfpFingerprints) ∈ manualCommands ∧
    SvcHandler.certfpFingerprints ∉ adminOnly := by decide

/-! ## C40 -/

private theorem updateAccount_other {users : Accounts} {name other : Str} {f : Account → Account} {dbOk : Bool}
    (hne : other ≠ name) : GoMap.get (updateAccount users name f dbOk).1 other = GoMap.get users other := by
  unfold updateAccount
  cases GoMap.get users name with
  | none => rfl
  | some a =>
    dsimp only
    split
    · rw [mget_mset, if_neg (fun h => hne h.symm)]
    · rfl

private theorem updateAccount_self {users : Accounts} {name : Str} {f : Account → Account} {dbOk : Bool}
    (hf : ∀ a, SameRights a (f a)) :
    SameRightsOpt (GoMap.get users name) (GoMap.get (updateAccount users name f dbOk).1 name) := by
  have hrefl : ∀ o : Option Account, SameRightsOpt o o := by
    intro o; cases o <;> simp [SameRightsOpt, SameRights]
  unfold updateAccount
  cases h : GoMap.get users name with
  | none => dsimp only; rw [h]; trivial
  | some a =>
    dsimp only
    split
    · rw [mget_mset, if_pos rfl]; exact hf a
    · rw [h]; exact hrefl _

private theorem sameRightsOpt_refl (o : Option Account) : SameRightsOpt o o := by
  cases o <;> simp [SameRightsOpt, SameRights]

private theorem updateAccount_notRun {users : Accounts} {name : Str} {f : Account → Account} {dbOk : Bool} :
    ∀ n p, (updateAccount users name f dbOk).2 ≠ .runAs n p := by
  intro n p
  unfold updateAccount
  cases GoMap.get users name with
  | none => exact fun h => by cases h
  | some a => dsimp only; split <;> exact fun h => by cases h

/-- What the update of a non-administrator can do. -/
private theorem userUpdate_nonAdmin (lib : AcctLib) (name : Str) (users : Accounts) (params : List Str)
    (dbOk : Bool) :
    (handleUserUpdate lib ⟨some name, false⟩ users params dbOk).1 = users ∨
    ∃ hashed f, f.admin = none ∧ f.enabled = none ∧ f.maxNetworks = none ∧
      (handleUserUpdate lib ⟨some name, false⟩ users params dbOk) =
        updateAccount users name (applyOwnUpdate hashed f) dbOk := by
  unfold handleUserUpdate
  cases parseFlags updateFormal (popArg params).2 .empty with
  | none => left; rfl
  | some fr =>
    obtain ⟨f, rest⟩ := fr
    dsimp only
    split
    · left; rfl
    split
    · left; rfl
    split
    · left; rfl
    split
    · left; simp
    split
    · left; rfl
    next h1 =>
    split
    · left; rfl
    next h2 =>
    split
    · left; rfl
    next h3 =>
    have hf : f.admin = none ∧ f.enabled = none ∧ f.maxNetworks = none := by
      refine ⟨?_, ?_, ?_⟩
      · simpa using h1
      · simpa using h2
      · simpa using h3
    split
    · left; rfl
    · next h _ => right; exact ⟨some h, f, hf.1, hf.2.1, hf.2.2, by simp⟩
    · right; exact ⟨none, f, hf.1, hf.2.1, hf.2.2, by simp⟩

private theorem userDelete_nonAdmin (lib : AcctLib) (name : Str) (users : Accounts) (params : List Str)
    (dbOk : Bool) : (handleUserDelete lib ⟨some name, false⟩ users params dbOk).1 = users := by
  unfold handleUserDelete
  split
  · rfl
  dsimp only
  by_cases hs : some name = some (params.headD [])
  · simp only [hs, decide_true, Bool.not_false, Bool.not_true, Bool.and_false, Bool.false_eq_true, if_false,
      if_true]
    split
    · rfl
    · split
      · rfl
      · split <;> rfl
  · have hd : decide (some name = some (params.headD [])) = false := by simpa using hs
    rw [if_pos (by rw [hd]; rfl)]

/-- A command line of a user who is not an administrator leaves every other account as it is, neither
creates nor deletes one, and leaves the rights of their own account — administrator, enabled, number of
networks — as they are, whatever the words. Nor can it make anyone else's event loop run a command. -/
theorem C40_authority (lib : AcctLib) (order : List (Str × SvcCmd) → List (Str × SvcCmd))
    (ho : AnyOrder order) (name : Str) (users : Accounts) (words : List Str) (dbOk : Bool) :
    (∀ other, other ≠ name →
      GoMap.get (serviceStep lib order ⟨some name, false⟩ users words dbOk).1 other = GoMap.get users other) ∧
    SameRightsOpt (GoMap.get users name)
      (GoMap.get (serviceStep lib order ⟨some name, false⟩ users words dbOk).1 name) ∧
    ∀ n p, (serviceStep lib order ⟨some name, false⟩ users words dbOk).2 ≠ .runAs n p := by
  unfold serviceStep
  cases hh : handleServiceCommand order ⟨some name, false⟩ words with
  | refused e => exact ⟨fun _ _ => rfl, sameRightsOpt_refl _, fun _ _ h => by cases h⟩
  | listCommands => exact ⟨fun _ _ => rfl, sameRightsOpt_refl _, fun _ _ h => by cases h⟩
  | run h params =>
    have hg := C39_gated order ho _ _ _ _ hh
    cases h
    case userCreate => exact absurd (hg.1 (by decide)) (by simp)
    case userRun => exact absurd (hg.1 (by decide)) (by simp)
    case userUpdate =>
      dsimp only
      rcases userUpdate_nonAdmin lib name users params dbOk with h | ⟨hashed, f, h1, h2, h3, h⟩
      · rw [h]
        refine ⟨fun _ _ => rfl, sameRightsOpt_refl _, ?_⟩
        intro n p
        unfold handleUserUpdate
        cases parseFlags updateFormal (popArg params).2 .empty with
        | none => exact fun h => by cases h
        | some fr =>
          obtain ⟨f, rest⟩ := fr
          dsimp only
          repeat' split
          all_goals first
            | exact fun h => by cases h
            | exact updateAccount_notRun n p
      · rw [h]
        refine ⟨fun _ hne => updateAccount_other hne, updateAccount_self ?_, updateAccount_notRun⟩
        intro a
        simp [SameRights, applyOwnUpdate, h3]
    case userDelete =>
      dsimp only
      rw [userDelete_nonAdmin]
      refine ⟨fun _ _ => rfl, sameRightsOpt_refl _, ?_⟩
      intro n p
      unfold handleUserDelete
      dsimp only
      repeat' split
      all_goals exact fun h => by cases h
    all_goals exact ⟨fun _ _ => rfl, sameRightsOpt_refl _, fun _ _ h => by cases h⟩

/-- A library for the examples. -/
def acctLibEx : AcctLib := ⟨fun p => some (104 :: p), fun u => u ++ b!"!"⟩

/-- Accounts for the examples. -/
def acctEx : Accounts := [(b!"bob", { Account.new with maxNetworks := 3 }), (b!"eve", Account.new),
  (b!"root", { Account.new with admin := true })]

example : GoMap.get (serviceStep acctLibEx id ⟨some b!"bob", false⟩ acctEx
    [b!"user", b!"update", b!"-nick", b!"bobby", b!"-password=x"] true).1 b!"bob" =
      some ⟨b!"hx", b!"bobby", [], false, true, 3⟩ ∧
    serviceStep acctLibEx id ⟨some b!"bob", false⟩ acctEx
      [b!"user", b!"update", b!"-max-networks", b!"9"] true = (acctEx, .refused) ∧
    serviceStep acctLibEx id ⟨some b!"bob", false⟩ acctEx
      [b!"user", b!"delete", b!"eve", b!"eve!"] true = (acctEx, .refused) := by decide +kernel

/-- Nobody's own command line changes whether their account is an administrator's or enabled, not even an
administrator's. -/
theorem C40_own_flags (lib : AcctLib) (order : List (Str × SvcCmd) → List (Str × SvcCmd))
    (name : Str) (adm : Bool) (users : Accounts) (words : List Str) (dbOk : Bool)
    (a : Account) (ha : GoMap.get users name = some a) :
    ∃ a', GoMap.get (serviceStep lib order ⟨some name, adm⟩ users words dbOk).1 name = some a' ∧
      a'.admin = a.admin ∧ a'.enabled = a.enabled := by
  have triv : ∃ a', GoMap.get users name = some a' ∧ a'.admin = a.admin ∧ a'.enabled = a.enabled :=
    ⟨a, ha, rfl, rfl⟩
  unfold serviceStep
  cases hh : handleServiceCommand order ⟨some name, adm⟩ words with
  | refused e => exact triv
  | listCommands => exact triv
  | run h params =>
    cases h
    case userCreate =>
      dsimp only
      unfold handleUserCreate
      cases parseFlags createFormal params ⟨[], [], false, [], [], false, true, -1⟩ with
      | none => exact triv
      | some fr =>
        obtain ⟨f, rest⟩ := fr
        dsimp only
        generalize (if f.disablePassword = true then some [] else lib.hash f.password) = o
        cases o with
        | none => repeat' split
                  all_goals first
                    | exact triv
                    | contradiction
        | some pw =>
          dsimp only
          repeat' split
          all_goals first
            | exact triv
            | skip
          next hn _ =>
            have hne : f.username ≠ name := by
              intro h
              rw [h, ha] at hn
              simp at hn
            rw [mget_mset, if_neg hne]
            exact triv
    case userUpdate =>
      dsimp only
      unfold handleUserUpdate
      cases parseFlags updateFormal (popArg params).2 .empty with
      | none => exact triv
      | some fr =>
        obtain ⟨f, rest⟩ := fr
        dsimp only
        split
        · exact triv
        split
        · exact triv
        split
        · exact triv
        split
        · next hne =>
          have hne' : name ≠ (popArg params).1 := fun h => hne.2 (by rw [h])
          repeat' split
          all_goals first
            | exact triv
            | (rw [updateAccount_other hne']; exact triv)
        · have key : ∀ hashed, ∃ a', GoMap.get (updateAccount users name (applyOwnUpdate hashed f) dbOk).1 name =
              some a' ∧ a'.admin = a.admin ∧ a'.enabled = a.enabled := by
            intro hashed
            unfold updateAccount
            rw [ha]
            dsimp only
            split
            · rw [mget_mset, if_pos rfl]
              exact ⟨_, rfl, by simp [applyOwnUpdate], by simp [applyOwnUpdate]⟩
            · exact triv
          repeat' split
          all_goals first
            | exact triv
            | exact key _
    case userDelete =>
      dsimp only
      unfold handleUserDelete
      dsimp only
      repeat' split
      all_goals first
        | exact triv
        | skip
      next hs _ =>
        have hne : params.headD [] ≠ name := by
          intro h
          apply hs
          rw [h]
          simp
        rw [mget_mdel, if_neg hne]
        exact triv
    all_goals exact triv

example : serviceStep acctLibEx id ⟨some b!"root", true⟩ acctEx
    [b!"user", b!"update", b!"-admin", b!"false"] true = (acctEx, .refused) := by decide +kernel

/-- An account disappears only by a command that names it together with its confirmation token, given by an
administrator other than the user themselves. -/
theorem C40_delete (lib : AcctLib) (order : List (Str × SvcCmd) → List (Str × SvcCmd)) (ctx : SvcCtx)
    (users : Accounts) (words : List Str) (dbOk : Bool) (name : Str) (a : Account)
    (ha : GoMap.get users name = some a)
    (hd : GoMap.get (serviceStep lib order ctx users words dbOk).1 name = none) :
    handleServiceCommand order ctx words = .run .userDelete [name, lib.token name] ∧ ctx.admin = true ∧
      ctx.user ≠ some name ∧ (serviceStep lib order ctx users words dbOk).1 = GoMap.del users name := by
  have hset : ∀ k e, GoMap.get (GoMap.set users k e) name ≠ none := by
    intro k e
    rw [mget_mset]
    split
    · simp
    · rw [ha]; simp
  have hupd : ∀ k f, GoMap.get (updateAccount users k f dbOk).1 name ≠ none := by
    intro k f
    unfold updateAccount
    cases GoMap.get users k with
    | none => rw [ha]; simp
    | some b =>
      dsimp only
      split
      · exact hset _ _
      · rw [ha]; simp
  have hno : GoMap.get users name ≠ none := by rw [ha]; simp
  unfold serviceStep at hd ⊢
  cases hh : handleServiceCommand order ctx words with
  | refused e => rw [hh] at hd; exact absurd hd hno
  | listCommands => rw [hh] at hd; exact absurd hd hno
  | run h params =>
    rw [hh] at hd
    cases h
    case userCreate =>
      exfalso
      dsimp only at hd
      unfold handleUserCreate at hd
      cases hp : parseFlags createFormal params ⟨[], [], false, [], [], false, true, -1⟩ with
      | none => rw [hp] at hd; exact hno hd
      | some fr =>
        obtain ⟨f, rest⟩ := fr
        rw [hp] at hd
        dsimp only at hd
        generalize (if f.disablePassword = true then some [] else lib.hash f.password) = o at hd
        cases o with
        | none => repeat' split at hd
                  all_goals first
                    | exact hno hd
                    | contradiction
        | some pw =>
          dsimp only at hd
          repeat' split at hd
          all_goals first
            | exact hno hd
            | exact hset _ _ hd
    case userUpdate =>
      exfalso
      dsimp only at hd
      unfold handleUserUpdate at hd
      cases hp : parseFlags updateFormal (popArg params).2 .empty with
      | none => rw [hp] at hd; exact hno hd
      | some fr =>
        obtain ⟨f, rest⟩ := fr
        rw [hp] at hd
        dsimp only at hd
        repeat' split at hd
        all_goals first
          | exact hno hd
          | exact hupd _ _ hd
    case userDelete =>
      dsimp only at hd ⊢
      match params, hd with
      | [], hd => exact absurd hd hno
      | u :: t :: t' :: r, hd =>
        have : handleUserDelete lib ctx users (u :: t :: t' :: r) dbOk = (users, .refused) := by
          unfold handleUserDelete; simp
        rw [this] at hd; exact absurd hd hno
      | [u], hd =>
        have : (handleUserDelete lib ctx users [u] dbOk).1 = users := by
          unfold handleUserDelete
          dsimp only
          repeat' split
          all_goals first
            | rfl
            | contradiction
        rw [this] at hd; exact absurd hd hno
      | [u, t], hd =>
        have he : handleUserDelete lib ctx users [u, t] dbOk =
            if !ctx.admin && !decide (ctx.user = some u) then (users, .refused)
            else if (GoMap.get users u).isNone then (users, .refused)
            else if t ≠ lib.token u then (users, .refused)
            else if decide (ctx.user = some u) then (users, .hangs)
            else if dbOk then (GoMap.del users u, .done)
            else (users, .refused) := rfl
        rw [he] at hd ⊢
        split at hd
        · exact absurd hd hno
        next hadm =>
        rw [if_neg hadm]
        split at hd
        · exact absurd hd hno
        next hex =>
        rw [if_neg hex]
        split at hd
        · exact absurd hd hno
        next ht =>
        rw [if_neg ht]
        split at hd
        · exact absurd hd hno
        next hs =>
        rw [if_neg hs]
        split at hd
        · next hok =>
          rw [mget_mdel] at hd
          split at hd
          · next hu =>
            have ht' : t = lib.token u := Classical.not_not.1 ht
            have hs' : ctx.user ≠ some u := by simpa using hs
            refine ⟨by rw [ht', hu], ?_, by rw [← hu]; exact hs', by rw [if_pos hok, hu]⟩
            simpa [hs'] using hadm
          · exact absurd hd hno
        · exact absurd hd hno
    all_goals exact absurd hd hno

example : (serviceStep acctLibEx id ⟨some b!"root", true⟩ acctEx [b!"user", b!"delete", b!"eve", b!"eve!"] true).1 =
    GoMap.del acctEx b!"eve" ∧
    (serviceStep acctLibEx id ⟨some b!"root", true⟩ acctEx [b!"user", b!"delete", b!"eve", b!"bob!"] true) =
      (acctEx, .refused) := by decide +kernel

/-- Operations other than lines on the administration socket: lines of clients, and whatever is queued. -/
def ClientLine : SvcOp → Prop
  | .line (.client _) _ _ => True
  | .line .adminSocket _ _ => False
  | .runQueued _ _ => True

/-- The author of a line. -/
def authorOf : SvcOp → Option Str
  | .line (.client n) _ _ => some n
  | _ => none

/-- No command line of users who are not administrators, in any number and order, gives anyone rights,
creates, deletes or changes the account of anyone who gave no command. -/
theorem C40_history (lib : AcctLib) (order : List (Str × SvcCmd) → List (Str × SvcCmd)) (ho : AnyOrder order)
    (users : Accounts) (ops : List SvcOp) (hops : ∀ op ∈ ops, ClientLine op)
    (hna : ∀ op ∈ ops, ∀ n, authorOf op = some n → ∀ a, GoMap.get users n = some a → a.admin = false) :
    (∀ n, SameRightsOpt (GoMap.get users n) (GoMap.get (svcRun lib order ⟨users, []⟩ ops).users n)) ∧
    ∀ n, (∀ op ∈ ops, authorOf op ≠ some n) →
      GoMap.get (svcRun lib order ⟨users, []⟩ ops).users n = GoMap.get users n := by
  have trans : ∀ a b c, SameRightsOpt a b → SameRightsOpt b c → SameRightsOpt a c := by
    intro a b c h1 h2
    cases a <;> cases b <;> cases c <;> simp_all [SameRightsOpt, SameRights]
  have key : ∀ (ops : List SvcOp) (st : SvcState), (∀ op ∈ ops, ClientLine op) → st.queued = [] →
      (∀ n, SameRightsOpt (GoMap.get users n) (GoMap.get st.users n)) →
      (∀ op ∈ ops, ∀ n, authorOf op = some n → ∀ a, GoMap.get users n = some a → a.admin = false) →
      (∀ n, SameRightsOpt (GoMap.get users n) (GoMap.get (ops.foldl (svcStep lib order) st).users n)) ∧
      ∀ n, (∀ op ∈ ops, authorOf op ≠ some n) →
        GoMap.get (ops.foldl (svcStep lib order) st).users n = GoMap.get st.users n := by
    intro ops
    induction ops with
    | nil => intro st _ _ hr _; exact ⟨hr, fun _ _ => rfl⟩
    | cons op ops ih =>
      intro st hcl hq hr hadm
      rw [List.foldl_cons]
      have hcl' : ∀ op ∈ ops, ClientLine op := fun o h => hcl o (List.mem_cons_of_mem _ h)
      have hadm' := fun o h => hadm o (List.mem_cons_of_mem _ h)
      cases op with
      | runQueued i dbOk =>
        have hs : svcStep lib order st (.runQueued i dbOk) = st := by
          unfold svcStep; rw [hq]; simp
        rw [hs]
        obtain ⟨h1, h2⟩ := ih st hcl' hq hr hadm'
        exact ⟨h1, fun n hn => h2 n (fun o h => hn o (List.mem_cons_of_mem _ h))⟩
      | line l words dbOk =>
        cases l with
        | adminSocket => exact absurd (hcl _ List.mem_cons_self) (by simp [ClientLine])
        | client name =>
          have hctx : lineCtx st (.client name) = ⟨some name, false⟩ := by
            unfold lineCtx
            dsimp only
            have hrn := hr name
            cases hg : GoMap.get st.users name with
            | none => rfl
            | some a =>
              cases hu : GoMap.get users name with
              | none => rw [hg, hu] at hrn; exact hrn.elim
              | some b =>
                rw [hg, hu] at hrn
                have := hadm _ List.mem_cons_self name rfl b hu
                simp [← hrn.1, this]
          obtain ⟨g1, g2, g3⟩ := C40_authority lib order ho name st.users words dbOk
          have hst : svcStep lib order st (.line (.client name) words dbOk) =
              ⟨(serviceStep lib order ⟨some name, false⟩ st.users words dbOk).1, []⟩ := by
            unfold svcStep
            dsimp only
            rw [hctx]
            congr 1
            cases hres : (serviceStep lib order ⟨some name, false⟩ st.users words dbOk).2 with
            | runAs n p => exact absurd hres (g3 n p)
            | _ => exact hq
          rw [hst]
          have hr' : ∀ n, SameRightsOpt (GoMap.get users n)
              (GoMap.get (serviceStep lib order ⟨some name, false⟩ st.users words dbOk).1 n) := by
            intro n
            by_cases hn : n = name
            · subst hn; exact trans _ _ _ (hr n) g2
            · rw [g1 n hn]; exact hr n
          obtain ⟨h1, h2⟩ := ih ⟨_, []⟩ hcl' rfl hr' hadm'
          refine ⟨h1, fun n hn => ?_⟩
          rw [h2 n (fun o h => hn o (List.mem_cons_of_mem _ h))]
          apply g1
          intro h
          subst h
          exact hn _ List.mem_cons_self rfl
  exact key ops ⟨users, []⟩ hops rfl (fun n => sameRightsOpt_refl _) hna

example : svcRun acctLibEx id ⟨acctEx, []⟩
    [.line (.client b!"bob") [b!"user", b!"run", b!"root", b!"user", b!"delete", b!"eve", b!"eve!"] true,
     .runQueued 0 true] = ⟨acctEx, []⟩ ∧
    (svcRun acctLibEx id ⟨acctEx, []⟩
    [.line (.client b!"root") [b!"user", b!"run", b!"bob", b!"user", b!"delete", b!"eve", b!"eve!"] true,
     .runQueued 0 true]).users = GoMap.del acctEx b!"eve" := by decide +kernel

end Verif.Props
