import Verif.Proof.DbUpgrade

/-! # C77: upgrading the database keeps its data -/

namespace Verif.Props
open Verif.Model Verif.Spec Verif.Proof

/-! ## Static facts about the migrations -/

private theorem sqlite_len : sqliteProgram.migrations.length = 25 := by decide +kernel
private theorem postgres_len : postgresProgram.migrations.length = 15 := by decide +kernel

private theorem sqlite_plain : ∀ v ∈ 0 :: List.range' 14 11,
    (upgradeStmts sqliteProgram v).all plain = true ∧
    ((layoutRun (layoutAt sqliteProgram sqliteV1 v) (upgradeStmts sqliteProgram v)).any
      (fun l => sameLayout l (layoutAt sqliteProgram sqliteV1 25))) = true := by decide +kernel

private theorem postgres_plain : ∀ v ∈ 0 :: List.range' 8 7,
    (upgradeStmts postgresProgram v).all plain = true ∧
    ((layoutRun (layoutAt postgresProgram postgresV1 v) (upgradeStmts postgresProgram v)).any
      (fun l => sameLayout l (layoutAt postgresProgram postgresV1 15))) = true := by decide +kernel

private theorem sqlite_all_layouts : ∀ v ∈ List.range 25,
    ((layoutRun (layoutAt sqliteProgram sqliteV1 v) (upgradeStmts sqliteProgram v)).any
      (fun l => sameLayout l (layoutAt sqliteProgram sqliteV1 25))) = true := by decide +kernel

private theorem postgres_all_layouts : ∀ v ∈ List.range 15,
    ((layoutRun (layoutAt postgresProgram postgresV1 v) (upgradeStmts postgresProgram v)).any
      (fun l => sameLayout l (layoutAt postgresProgram postgresV1 15))) = true := by decide +kernel

private theorem sqlite_safe : ∀ v ∈ 0 :: List.range' 8 17,
    safeRun (layoutAt sqliteProgram sqliteV1 v) (upgradeStmts sqliteProgram v) = true := by decide +kernel

private theorem sqlite_rerun : ∀ v ∈ List.range 25,
    (layoutRun (layoutAt sqliteProgram sqliteV1 v) (upgradeStmts sqliteProgram v)).all (fun l =>
      (layoutRun l (upgradeStmts sqliteProgram v)).isNone) = true := by decide +kernel

private theorem postgres_rerun : ∀ v ∈ List.range 15,
    (layoutRun (layoutAt postgresProgram postgresV1 v) (upgradeStmts postgresProgram v)).all (fun l =>
      (layoutRun l (upgradeStmts postgresProgram v)).isNone) = true := by decide +kernel

private theorem sqlite_named : ∀ v ∈ List.range' 1 7,
    ((sqliteMigrations.drop v).take (7 - v)).flatten ++ sqliteNetwork7 :: (sqliteMigrations.drop 8).flatten =
      upgradeStmts sqliteProgram v ∧
    safeRun (layoutAt sqliteProgram sqliteV1 v) ((sqliteMigrations.drop v).take (7 - v)).flatten = true ∧
    layoutRun (layoutAt sqliteProgram sqliteV1 v) ((sqliteMigrations.drop v).take (7 - v)).flatten =
      some (layoutAt sqliteProgram sqliteV1 7) := by decide +kernel

private def defaultsAdded : List (Nat × Str × Str × SqlVal) :=
  [(2, b!"Channel", b!"detached", .int 0), (5, b!"User", b!"admin", .int 0), (11, b!"Network", b!"enabled", .int 1),
   (18, b!"Network", b!"auto_away", .int 1), (21, b!"User", b!"enabled", .int 1),
   (24, b!"User", b!"max_networks", .int (-1))]

private theorem sqlite_adds : ∀ v ∈ List.range' 1 24, ∀ q ∈ defaultsAdded, v ≤ q.1 →
    addsConst q.2.1 q.2.2.1 q.2.2.2 (upgradeStmts sqliteProgram v) = true := by decide +kernel

private theorem postgres_others : ∀ v ∈ List.range 15, (upgradeStmts postgresProgram v).all (fun s =>
    gentle s || decide (s = .deleteAll b!"WebPushSubscription")) = true := by decide +kernel

/-! ## Example databases -/

/-- A database of the first version, with a user, alice, who has a network. -/
private def dbV1 : SqlDb :=
  [⟨b!"User", [{ name := b!"username", notNull := true }, { name := b!"password" }], [[b!"username"]],
     [[(b!"rowid", .int 1), (b!"username", .text b!"alice"), (b!"password", .text b!"hash")]]⟩,
   ⟨b!"Network", [b!"id", b!"name", b!"user", b!"addr", b!"nick", b!"username", b!"realname", b!"pass",
       b!"sasl_mechanism", b!"sasl_plain_username", b!"sasl_plain_password"].map (fun n => { name := n }),
     [[b!"id"]],
     [[(b!"id", .int 3), (b!"name", .text b!"libera"), (b!"user", .text b!"alice"), (b!"addr", .text b!"irc.libera.chat"),
       (b!"nick", .text b!"al")]]⟩,
   ⟨b!"Channel", [b!"id", b!"network", b!"name", b!"key"].map (fun n =>
       if n = b!"network" then { name := n, ref := some b!"Network" } else { name := n }), [[b!"id"]], []⟩]

private def dbAt (v : Nat) : SqlDb := (sqlExecAll true b!"now" dbV1 (sqliteMigrations.take v).flatten).getD []

/-- The user has also joined a channel on this network. -/
private def withChannel (db : SqlDb) : SqlDb :=
  onTable db b!"Channel" (fun tb => { tb with
    rows := [[(b!"id", .int 1), (b!"network", .int 3), (b!"name", .text b!"#soju")]] })

private theorem atVersion_of {p : SqlProgram} {first : Layout} {st : SqlStore}
    (h : sameLayout (st.db.map (fun tb => (tb.name, tb.cols.map (·.name)))) (layoutAt p first st.version) = true) :
    AtVersion p first st := sameLayout_has h (hasLayout_self _)

/-! ## Versions that need no table to be rebuilt -/

private theorem any_some {α : Type} {o : Option α} {f : α → Bool} (h : o.any f = true) :
    ∃ a, o = some a ∧ f a = true := by
  cases o with
  | none => cases h
  | some a => exact ⟨a, rfl, h⟩

/-- SQLite databases of versions 14 to 25: the upgrade succeeds, every query that could be made before has the
same answer, and the tables and columns are those of the current version. -/
theorem C77_upgrade (now : Str) (st : SqlStore) (hv : AtVersion sqliteProgram sqliteV1 st)
    (h1 : 14 ≤ st.version) (h2 : st.version ≤ 25) :
    ∃ db, dbUpgrade sqliteProgram now st = (⟨25, db⟩, .ok) ∧ Keeps st.db db ∧
      AtVersion sqliteProgram sqliteV1 ⟨25, db⟩ := by
  by_cases h3 : st.version = 25
  · obtain ⟨v, db⟩ := st
    change v = 25 at h3
    subst h3
    exact ⟨db, by rw [dbUpgrade, if_pos sqlite_len.symm], keepsBut_refl _, hv⟩
  · obtain ⟨h4, h5⟩ := sqlite_plain st.version (by simp; omega)
    obtain ⟨l, h6, h7⟩ := any_some h5
    have := plain_upgrade now hv (by rw [sqlite_len]; omega) h4 h6 (by rw [sqlite_len]; exact h7)
    rw [sqlite_len] at this
    exact this

example : AtVersion sqliteProgram sqliteV1 ⟨14, withChannel (dbAt 14)⟩ ∧
    sqlSelect (withChannel (dbAt 14)) b!"Channel" [b!"network", b!"name"] = some [[.int 3, .text b!"#soju"]] :=
  ⟨atVersion_of (by decide +kernel), by decide +kernel⟩

/-- PostgreSQL databases of versions 8 to 15. -/
theorem C77_upgrade_postgres (now : Str) (st : SqlStore) (hv : AtVersion postgresProgram postgresV1 st)
    (h1 : 8 ≤ st.version) (h2 : st.version ≤ 15) :
    ∃ db, dbUpgrade postgresProgram now st = (⟨15, db⟩, .ok) ∧ Keeps st.db db ∧
      AtVersion postgresProgram postgresV1 ⟨15, db⟩ := by
  by_cases h3 : st.version = 15
  · obtain ⟨v, db⟩ := st
    change v = 15 at h3
    subst h3
    exact ⟨db, by rw [dbUpgrade, if_pos postgres_len.symm], keepsBut_refl _, hv⟩
  · obtain ⟨h4, h5⟩ := postgres_plain st.version (by simp; omega)
    obtain ⟨l, h6, h7⟩ := any_some h5
    have := plain_upgrade now hv (by rw [postgres_len]; omega) h4 h6 (by rw [postgres_len]; exact h7)
    rw [postgres_len] at this
    exact this

/-- A PostgreSQL database of version 8, with a user. -/
private def pgAt8 : SqlDb :=
  (layoutAt postgresProgram postgresV1 8).map (fun p => ⟨p.1, p.2.map (fun n => { name := n }), [],
    if p.1 = b!"User" then [[(b!"id", .int 1), (b!"username", .text b!"alice")]] else []⟩)

example : AtVersion postgresProgram postgresV1 ⟨8, pgAt8⟩ ∧
    sqlSelect pgAt8 b!"User" [b!"id", b!"username"] = some [[.int 1, .text b!"alice"]] :=
  ⟨atVersion_of (by decide +kernel), by decide +kernel⟩

/-- A new database has the tables and columns of the current version, and so those of every upgraded one. -/
theorem C77_new (now : Str) :
    (∃ db, dbUpgrade sqliteProgram now ⟨0, []⟩ = (⟨25, db⟩, .ok) ∧ AtVersion sqliteProgram sqliteV1 ⟨25, db⟩) ∧
    (∃ db, dbUpgrade postgresProgram now ⟨0, []⟩ = (⟨15, db⟩, .ok) ∧
      AtVersion postgresProgram postgresV1 ⟨15, db⟩) := by
  have empty : ∀ p first, AtVersion p first ⟨0, []⟩ := fun p first t => ⟨rfl, fun c => rfl⟩
  constructor
  · obtain ⟨h4, h5⟩ := sqlite_plain 0 (by simp)
    obtain ⟨l, h6, h7⟩ := any_some h5
    obtain ⟨db, h8, -, h9⟩ := plain_upgrade now (empty _ _) (by decide) h4 h6 (by rw [sqlite_len]; exact h7)
    rw [sqlite_len] at h8 h9
    exact ⟨db, h8, h9⟩
  · obtain ⟨h4, h5⟩ := postgres_plain 0 (by simp)
    obtain ⟨l, h6, h7⟩ := any_some h5
    obtain ⟨db, h8, -, h9⟩ := plain_upgrade now (empty _ _) (by decide) h4 h6 (by rw [postgres_len]; exact h7)
    rw [postgres_len] at h8 h9
    exact ⟨db, h8, h9⟩

/-! ## Older versions -/

/-- SQLite databases of version 8 or later: if the upgrade succeeds, every query that could be made before has the
same answer. That it succeeds is missing for versions 8 to 13, see `C77_channels_violated`. -/
theorem C77_kept_partial (now : Str) (st st' : SqlStore) (hv : AtVersion sqliteProgram sqliteV1 st)
    (h1 : 8 ≤ st.version) (h : dbUpgrade sqliteProgram now st = (st', .ok)) :
    Keeps st.db st'.db ∧ st'.version = 25 ∧ AtVersion sqliteProgram sqliteV1 st' := by
  rcases open_ok h with ⟨rfl, h2⟩ | ⟨h2, h3, h4⟩
  · exact ⟨keepsBut_refl _, h2.trans sqlite_len, hv⟩
  · rw [sqlite_len] at h2 h3
    refine ⟨safe_keeps hv (sqlite_safe _ (by simp; omega)) h4, h3, ?_⟩
    obtain ⟨l, h5, h6⟩ := any_some (sqlite_all_layouts st.version (by simp; omega))
    obtain ⟨l', h7, h8⟩ := layout_all hv h4
    rw [h5] at h7
    cases h7
    rw [AtVersion, h3]
    exact sameLayout_has h6 h8

example : AtVersion sqliteProgram sqliteV1 ⟨9, dbAt 9⟩ ∧ (dbUpgrade sqliteProgram b!"now" ⟨9, dbAt 9⟩).2 = .ok ∧
    sqlSelect (dbUpgrade sqliteProgram b!"now" ⟨9, dbAt 9⟩).1.db b!"Network" [b!"id", b!"user", b!"nick"] =
      some [[.int 3, .int 1, .text b!"al"]] :=
  ⟨atVersion_of (by decide +kernel), by decide +kernel, by decide +kernel⟩

/-- SQLite databases of versions 1 to 7, in which the owner of a network is given by name: if the upgrade succeeds,
every query that could be made before has the same answer, but for the owners of the networks, which are then given by
identifier: that of the user who has had this name. -/
theorem C77_named_partial (now : Str) (st st' : SqlStore) (hv : AtVersion sqliteProgram sqliteV1 st)
    (h1 : 1 ≤ st.version) (h2 : st.version ≤ 7) (hn : (st.db.map (·.name)).Nodup) (ho : Owned st.db)
    (h : dbUpgrade sqliteProgram now st = (st', .ok)) :
    KeepsBut (fun t c => t = b!"Network" ∧ c = b!"user") st.db st'.db ∧
    ∃ names ids users, sqlSelect st.db b!"Network" [b!"user"] = some names ∧
      sqlSelect st'.db b!"Network" [b!"user"] = some ids ∧
      sqlSelect st'.db b!"User" [b!"username", b!"id"] = some users ∧
      names.length = ids.length ∧ ∀ p ∈ names.zip ids, p.1 ++ p.2 ∈ users := by
  rcases open_ok h with ⟨rfl, h3⟩ | ⟨h3, h4, h5⟩
  · rw [sqlite_len] at h3; omega
  · obtain ⟨e1, e2, e3⟩ := sqlite_named st.version (by simp; omega)
    rw [← e1] at h5
    refine named_keeps hv e2 e3 (by decide +kernel) (by decide +kernel) ?_ hn ho h5
    intro l2 h6
    have : layoutStep (layoutAt sqliteProgram sqliteV1 7) sqliteNetwork7 = some (layoutAt sqliteProgram sqliteV1 8) := by
      decide +kernel
    rw [sqliteNetwork7, h6] at this
    cases this
    exact sqlite_safe 8 (by decide)

example : AtVersion sqliteProgram sqliteV1 ⟨1, dbV1⟩ ∧ (dbV1.map (·.name)).Nodup ∧ Owned dbV1 ∧
    (dbUpgrade sqliteProgram b!"now" ⟨1, dbV1⟩).2 = .ok ∧
    sqlSelect (dbUpgrade sqliteProgram b!"now" ⟨1, dbV1⟩).1.db b!"Network" [b!"id", b!"user"] =
      some [[.int 3, .int 1]] :=
  ⟨atVersion_of (by decide +kernel), by decide +kernel,
    ⟨_, _, rfl, rfl, by decide +kernel⟩, by decide +kernel, by decide +kernel⟩

/-- PostgreSQL databases of every version: if the upgrade succeeds, every query that could be made before has the same
answer, but for the subscriptions to push notifications. -/
theorem C77_kept_postgres_partial (now : Str) (st st' : SqlStore)
    (h : dbUpgrade postgresProgram now st = (st', .ok)) :
    ∀ t cs rows, t ≠ b!"WebPushSubscription" → sqlSelect st.db t cs = some rows →
      sqlSelect st'.db t cs = some rows := by
  rcases open_ok h with ⟨rfl, h3⟩ | ⟨h3, h4, h5⟩
  · exact fun _ _ _ _ h => h
  · rw [postgres_len] at h3
    exact others_all (postgres_others st.version (by simp; omega)) h5

example : (dbUpgrade postgresProgram b!"now" ⟨8, pgAt8⟩).2 = .ok := by decide +kernel

/-- Users and networks that exist stay enabled, users are no administrators and have no limit of networks until somebody
says otherwise, and channels are attached. -/
theorem C77_defaults (now : Str) (st st' : SqlStore) (h1 : 1 ≤ st.version)
    (h : dbUpgrade sqliteProgram now st = (st', .ok)) (k : Nat) (t c : Str) (d : SqlVal)
    (hq : (k, t, c, d) ∈ [(2, b!"Channel", b!"detached", .int 0), (5, b!"User", b!"admin", .int 0),
      (11, b!"Network", b!"enabled", .int 1), (18, b!"Network", b!"auto_away", .int 1),
      (21, b!"User", b!"enabled", .int 1), (24, b!"User", b!"max_networks", .int (-1))])
    (hk : st.version ≤ k) :
    ∃ rows, sqlSelect st'.db t [c] = some rows ∧ ∀ r ∈ rows, r = [d] := by
  have hk24 : k ≤ 24 := by
    simp only [List.mem_cons, Prod.mk.injEq, List.not_mem_nil, or_false] at hq
    omega
  rcases open_ok h with ⟨rfl, h3⟩ | ⟨h3, h4, h5⟩
  · rw [sqlite_len] at h3; omega
  · exact addsConst_all (sqlite_adds st.version (by simp; omega) (k, t, c, d) hq hk) h5

example : sqlSelect (dbUpgrade sqliteProgram b!"now" ⟨1, dbV1⟩).1.db b!"User" [b!"enabled", b!"admin"] =
    some [[.int 1, .int 0]] := by decide +kernel

private theorem sqlite_owner : ∀ v ∈ List.range' 1 16,
    ((sqliteMigrations.drop v).take (16 - v)).flatten ++
      .addColumn b!"WebPushSubscription" { name := b!"user", ref := some b!"User" } .owner ::
        (sqliteMigrations.drop 17).flatten = upgradeStmts sqliteProgram v ∧
    layoutRun (layoutAt sqliteProgram sqliteV1 v) ((sqliteMigrations.drop v).take (16 - v)).flatten =
      some (layoutAt sqliteProgram sqliteV1 16) := by decide +kernel

/-- After the upgrade from a version before 17, in which subscriptions to push notifications had no user, the user of a
subscription for a network is the owner of this network. -/
theorem C77_subscriber (now : Str) (st st' : SqlStore) (hv : AtVersion sqliteProgram sqliteV1 st)
    (h1 : 1 ≤ st.version) (h2 : st.version ≤ 16) (hn : (st.db.map (·.name)).Nodup)
    (h : dbUpgrade sqliteProgram now st = (st', .ok)) (nets subs : List (List SqlVal))
    (hnets : sqlSelect st'.db b!"Network" [b!"id", b!"user"] = some nets)
    (hsubs : sqlSelect st'.db b!"WebPushSubscription" [b!"network", b!"user"] = some subs)
    (hu : ∀ n o o', [n, o] ∈ nets → [n, o'] ∈ nets → o = o') (network user owner : SqlVal)
    (hs : [network, user] ∈ subs) (hne : network ≠ .null) (ho : [network, owner] ∈ nets) : user = owner := by
  rcases open_ok h with ⟨rfl, h3⟩ | ⟨h3, h4, h5⟩
  · rw [sqlite_len] at h3; omega
  · obtain ⟨e1, e2⟩ := sqlite_owner st.version (by simp; omega)
    rw [← e1] at h5
    refine owner_added hn rfl (by decide +kernel) h5 hnets hsubs ?_ hu network user owner hs hne ho
    intro mid hmid
    obtain ⟨l, h6, h7⟩ := layout_all hv hmid
    rw [e2] at h6
    cases h6
    rw [(h7 _).2, (h7 _).2, (h7 _).2]
    decide +kernel

/-- A subscription for the network 3 of the user 1. -/
private def withSubscription3 (db : SqlDb) : SqlDb :=
  onTable db b!"WebPushSubscription" (fun tb => { tb with
    rows := [[(b!"id", .int 1), (b!"created_at", .text b!"t"), (b!"updated_at", .text b!"t"), (b!"network", .int 3),
      (b!"endpoint", .text b!"https://push.example.org/x")]] })

example : AtVersion sqliteProgram sqliteV1 ⟨16, withSubscription3 (dbAt 16)⟩ ∧
    (dbUpgrade sqliteProgram b!"now" ⟨16, withSubscription3 (dbAt 16)⟩).2 = .ok ∧
    sqlSelect (dbUpgrade sqliteProgram b!"now" ⟨16, withSubscription3 (dbAt 16)⟩).1.db b!"Network"
      [b!"id", b!"user"] = some [[.int 3, .int 1]] ∧
    sqlSelect (dbUpgrade sqliteProgram b!"now" ⟨16, withSubscription3 (dbAt 16)⟩).1.db b!"WebPushSubscription"
      [b!"network", b!"user"] = some [[.int 3, .int 1]] :=
  ⟨atVersion_of (by decide +kernel), by decide +kernel, by decide +kernel, by decide +kernel⟩

/-! ## Failures and races -/

/-- An upgrade that fails leaves the database as it was, and a database of a later version is refused. -/
theorem C77_failed (p : SqlProgram) (now : Str) (st st' : SqlStore) (res : UpgradeResult)
    (h : dbUpgrade p now st = (st', res)) :
    (res = .error → st' = st) ∧ (res = .ok → st'.version = p.migrations.length) ∧
    (p.migrations.length < st.version → res = .error) := by
  rw [dbUpgrade] at h
  split at h
  · next h1 => cases h; exact ⟨fun _ => rfl, fun _ => h1, fun h => by omega⟩
  · split at h
    · cases h; exact ⟨fun _ => rfl, fun h => (nomatch h), fun _ => rfl⟩
    · split at h
      · cases h; exact ⟨fun _ => rfl, fun h => (nomatch h), fun _ => rfl⟩
      · next hs =>
        cases h
        unfold upgradeTx at hs
        obtain ⟨db, h3, h4⟩ := Option.map_eq_some_iff.mp hs
        rw [← h4]
        exact ⟨fun h => (nomatch h), fun _ => rfl, fun h => by omega⟩

example : dbUpgrade sqliteProgram b!"now" ⟨26, dbV1⟩ = (⟨26, dbV1⟩, .error) := by decide +kernel

private theorem all_none {o : Option Layout} {f : Layout → Option Layout} (h : o.all (fun l => (f l).isNone) = true)
    (l : Layout) (hl : o = some l) : f l = none := by
  rw [hl] at h
  simpa using h

/-- However many processes open a database at once, wherever they are interrupted and whatever version they have read
before: the database is the one before the upgrade, or the one after a single upgrade. -/
theorem C77_once (init : SqlStore) (ops : List UpgradeOp) :
    (AtVersion sqliteProgram sqliteV1 init → init.version ≤ 25 →
      (upgradeRun sqliteProgram ⟨init, []⟩ ops).store = init ∨
      ∃ now, dbUpgrade sqliteProgram now init = ((upgradeRun sqliteProgram ⟨init, []⟩ ops).store, .ok)) ∧
    (AtVersion postgresProgram postgresV1 init → init.version ≤ 15 →
      (upgradeRun postgresProgram ⟨init, []⟩ ops).store = init ∨
      ∃ now, dbUpgrade postgresProgram now init = ((upgradeRun postgresProgram ⟨init, []⟩ ops).store, .ok)) := by
  have key : ∀ (p : SqlProgram) (first : Layout), AtVersion p first init → init.version ≤ p.migrations.length →
      (∀ v ∈ List.range p.migrations.length,
        (layoutRun (layoutAt p first v) (upgradeStmts p v)).all (fun l =>
          (layoutRun l (upgradeStmts p v)).isNone) = true) →
      (upgradeRun p ⟨init, []⟩ ops).store = init ∨
      ∃ now, dbUpgrade p now init = ((upgradeRun p ⟨init, []⟩ ops).store, .ok) := by
    intro p first hv hle hr
    by_cases hlt : init.version < p.migrations.length
    · rcases (upgrade_race hv (all_none (hr _ (by simpa using hlt))) ops).1 with h | ⟨now, h⟩
      · exact .inl h
      · refine .inr ⟨now, ?_⟩
        rw [dbUpgrade, if_neg (by omega), if_neg (by omega), h]
    · left
      have hle' : init.version = p.migrations.length := by omega
      clear hr
      have : ∀ ops : List UpgradeOp, (upgradeRun p ⟨init, []⟩ ops).store = init ∧
          ∀ q v, (upgradeRun p ⟨init, []⟩ ops).seen.get q = some v → v = p.migrations.length := by
        intro ops
        induction ops using snocInd with
        | nil => exact ⟨rfl, fun _ _ h => nomatch h⟩
        | snoc ops op ih =>
          rw [show upgradeRun p ⟨init, []⟩ (ops ++ [op]) = upgradeStep p (upgradeRun p ⟨init, []⟩ ops) op by
            simp [upgradeRun]]
          generalize upgradeRun p ⟨init, []⟩ ops = st at ih
          obtain ⟨hs, hseen⟩ := ih
          have hdel : ∀ proc q v, (st.seen.del proc).get q = some v → v = p.migrations.length := by
            intro proc q v h
            rw [mget_mdel] at h
            split at h
            · cases h
            · exact hseen q v h
          cases op with
          | read proc =>
            refine ⟨hs, fun q v h => ?_⟩
            change (st.seen.set proc st.store.version).get q = some v at h
            rw [mget_mset] at h
            split at h
            · cases h; rw [hs]; exact hle'
            · exact hseen q v h
          | run proc now fault =>
            simp only [upgradeStep]
            split
            · exact ⟨hs, hseen⟩
            · next v hg =>
              rw [if_pos (.inr (by rw [hseen proc v hg]; exact Nat.le_refl _))]
              exact ⟨hs, hdel proc⟩
      exact (this ops).1
  exact ⟨fun h1 h2 => key _ _ h1 (by rw [sqlite_len]; exact h2) (by rw [sqlite_len]; exact sqlite_rerun),
    fun h1 h2 => key _ _ h1 (by rw [postgres_len]; exact h2) (by rw [postgres_len]; exact postgres_rerun)⟩

/-- Two processes read the version before either upgrades the database; the second one fails and changes nothing. -/
example :
    (upgradeRun sqliteProgram ⟨⟨14, withChannel (dbAt 14)⟩, []⟩
      [.read 1, .read 2, .run 1 b!"now" false, .run 2 b!"later" false]).store =
      (dbUpgrade sqliteProgram b!"now" ⟨14, withChannel (dbAt 14)⟩).1 ∧
    (dbUpgrade sqliteProgram b!"now" ⟨14, withChannel (dbAt 14)⟩).1 ≠ ⟨14, withChannel (dbAt 14)⟩ := by
  decide +kernel

/-! ## Disagreements -/

/-- sqlite.go:132-161: a database of version 13 with a channel cannot be upgraded: the table of the networks is dropped
with foreign keys enforced, while channels refer to it. -/
theorem C77_channels_violated :
    AtVersion sqliteProgram sqliteV1 ⟨13, withChannel (dbAt 13)⟩ ∧
    sqlSelect (withChannel (dbAt 13)) b!"Channel" [b!"network", b!"name"] = some [[.int 3, .text b!"#soju"]] ∧
    ∀ now, (dbUpgrade sqliteProgram now ⟨13, withChannel (dbAt 13)⟩).2 = .error := by
  refine ⟨atVersion_of (by decide +kernel), by decide +kernel, fun now => ?_⟩
  have h : sqlExec true now (withChannel (dbAt 13)) sqliteNetwork13 = none := by
    rw [show sqlExec true now (withChannel (dbAt 13)) sqliteNetwork13 =
      sqlExec true [] (withChannel (dbAt 13)) sqliteNetwork13 from rfl]
    decide +kernel
  have h2 : upgradeTx sqliteProgram now 13 ⟨13, withChannel (dbAt 13)⟩ = none := by
    have e : upgradeStmts sqliteProgram 13 = sqliteNetwork13 :: (sqliteMigrations.drop 14).flatten := by decide +kernel
    unfold upgradeStmts at e
    unfold upgradeTx
    rw [e, sqlExecAll]
    rw [show sqliteProgram.fk = true from rfl, h]
    rfl
  rw [dbUpgrade, if_neg (show ¬ 13 = sqliteProgram.migrations.length by decide +kernel),
    if_neg (show ¬ 13 > sqliteProgram.migrations.length by decide +kernel)]
  dsimp only
  rw [h2]

/-- A subscription to push notifications of all networks of a user. -/
private def withSubscription (db : SqlDb) : SqlDb :=
  onTable db b!"WebPushSubscription" (fun tb => { tb with
    rows := [[(b!"id", .int 1), (b!"created_at", .text b!"t"), (b!"updated_at", .text b!"t"), (b!"network", .null),
      (b!"endpoint", .text b!"https://push.example.org/x")]] })

/-- sqlite.go:191-194: a subscription to push notifications that is not for a network belongs to no user after the
upgrade from version 16, so that it is never used again, although the column cannot be empty in a new database. -/
theorem C77_subscription_violated :
    AtVersion sqliteProgram sqliteV1 ⟨16, withSubscription (dbAt 16)⟩ ∧
    (dbUpgrade sqliteProgram b!"now" ⟨16, withSubscription (dbAt 16)⟩).2 = .ok ∧
    sqlSelect (dbUpgrade sqliteProgram b!"now" ⟨16, withSubscription (dbAt 16)⟩).1.db b!"WebPushSubscription"
      [b!"id", b!"network", b!"user"] = some [[.int 1, .null, .null]] ∧
    .create b!"WebPushSubscription" [{ name := b!"id" }, { name := b!"created_at", notNull := true },
      { name := b!"updated_at", notNull := true }, { name := b!"user", notNull := true, ref := some b!"User" },
      { name := b!"network", ref := some b!"Network" }, { name := b!"endpoint", notNull := true },
      { name := b!"key_vapid" }, { name := b!"key_auth" }, { name := b!"key_p256dh" }]
      [[b!"id"], [b!"network", b!"endpoint"]] ∈ sqliteSchema :=
  ⟨atVersion_of (by decide +kernel), by decide +kernel, by decide +kernel, by decide +kernel⟩

end Verif.Props
