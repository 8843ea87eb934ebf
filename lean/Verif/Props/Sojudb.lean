import Verif.Model.Sojudb
import Verif.Props.SqDb
import Verif.Props.AuthDriver

/-! # C103: sojudb creates the account it is asked for and changes the password it is asked to -/

namespace Verif.Props
open Verif.Model Verif.Spec Verif.Proof

/-! ## Specification -/

/-- Only the table of the users may differ. -/
def SameButUsers (a b : SqDb) : Prop := ∃ rows, b = { a with users := rows }

/-- What bcrypt promises: a hash of a password, which is never empty, is accepted with this password, and its cost is the
default one. -/
def BcryptWorks (lib : BcryptLib) : Prop :=
  ∀ salt p h, lib.gen salt p = some h → h ≠ [] ∧ lib.compare h p = true ∧ lib.cost h = some bcryptDefaultCost

/-- The account, as the authentication sees it. -/
def acctOf (u : PdUserRec) : AcctRow := ⟨u.id, u.password, u.admin, u.enabled, []⟩

/-! ## Lemmas -/

private theorem ms_ms (t : Int) : toMillis (toMillis t) = toMillis t := by
  unfold toMillis
  omega

private theorem ms_years (t : Int) (h : InYears t) : InYears (toMillis t) := by
  unfold InYears toMillis dayNanos at *
  omega

private theorem store_same (db : SqDb) (now : Int) (r : PdUserRec) :
    SameButUsers db (sqStoreUser db now r).1 ∧ ((sqStoreUser db now r).2 = none → (sqStoreUser db now r).1 = db) := by
  have key : ∀ (rows : List SqUserRow) (id : Nat), SameButUsers db (sqCommit db (sqStatement { db with users := rows }) id).1 ∧
      ((sqCommit db (sqStatement { db with users := rows }) id).2 = none →
        (sqCommit db (sqStatement { db with users := rows }) id).1 = db) := by
    intro rows id
    unfold sqStatement
    split
    · refine ⟨⟨rows, rfl⟩, fun h => ?_⟩
      simp [sqCommit] at h
    · exact ⟨⟨db.users, rfl⟩, fun _ => rfl⟩
  unfold sqStoreUser
  dsimp only
  split
  · exact key _ _
  · split
    · exact ⟨⟨db.users, rfl⟩, fun _ => rfl⟩
    · exact key _ _

private theorem times_snoc {ops : List PdOp} (ht : SqTimesOK ops) {now : Int} {r : PdUserRec} (h1 : InYears now)
    (h2 : InYears r.interactedAt) : SqTimesOK (ops ++ [.storeUser now r]) := by
  refine ⟨?_, ?_, ?_⟩
  · intro n' r' h
    rw [List.mem_append, List.mem_singleton] at h
    rcases h with h | h
    · exact ht.1 _ _ h
    · cases h; exact ⟨h1, h2⟩
  · intro n' r' h
    rw [List.mem_append, List.mem_singleton] at h
    rcases h with h | h
    · exact ht.2.1 _ _ h
    · cases h
  · intro a b c d h
    rw [List.mem_append, List.mem_singleton] at h
    rcases h with h | h
    · exact ht.2.2 _ _ _ _ h
    · cases h

private abbrev ms (u : PdUserRec) : PdUserRec := { u with interactedAt := toMillis u.interactedAt }

private theorem listed {ops : List PdOp} (ht : SqTimesOK ops) {l : List PdUserRec} (hl : sqListUsers (sqRun ops).1 = some l) :
    l.Perm ((sqKept (sqRun ops).2).users.map (fun p => ms p.1)) := by
  obtain ⟨l', h1, h2⟩ := C84_users ops ht
  have h1 : sqListUsers (sqRun ops).1 = some l' := h1
  rw [hl] at h1
  cases h1
  exact h2

private theorem years_listed {ops : List PdOp} (ht : SqTimesOK ops) {l : List PdUserRec}
    (hl : sqListUsers (sqRun ops).1 = some l) : ∀ u ∈ l, InYears u.interactedAt ∧ toMillis u.interactedAt = u.interactedAt := by
  intro u hu
  have := (listed ht hl).mem_iff.1 hu
  obtain ⟨p, hp, rfl⟩ := List.mem_map.1 this
  exact ⟨ms_years _ (sq_user_times ops ht p hp), ms_ms _⟩

private theorem years_zero : InYears 0 := by
  unfold InYears dayNanos
  omega

/-! ## C103 -/

/-- `create-user`, when it succeeds, adds one account with the name that was given, which nobody had: enabled, with the
hash of the password that was read, an administrator as the flags say, without any limit, and with an identifier that no
user has. All other accounts, and everything else in the database, stay. -/
theorem C103_create (lib : BcryptLib) (salt : Nat) (now : Int) (input : PwInput) (ops : List PdOp) (ht : SqTimesOK ops)
    (hn : InYears now) (l : List PdUserRec) (hl : sqListUsers (sqRun ops).1 = some l) (name : Str) (flags : List Str) (db' : SqDb)
    (hr : sojudb lib salt now input (sqRun ops).1 (b!"create-user" :: name :: flags) = (db', true)) :
    SameButUsers (sqRun ops).1 db' ∧
    ∃ id password h admin l', name ≠ [] ∧ readPassword input = some password ∧ lib.gen salt password = some h ∧
      (flags = [] → admin = false) ∧ (flags = [b!"-admin"] → admin = true) ∧
      (∀ u ∈ l, u.username ≠ name ∧ u.id ≠ id) ∧
      sqListUsers db' = some l' ∧ l'.Perm (⟨id, name, h, [], [], admin, true, 0, -1⟩ :: l) := by
  have e : sojudb lib salt now input (sqRun ops).1 (b!"create-user" :: name :: flags) =
      sjCreate lib salt now input (sqRun ops).1 (name :: flags) := rfl
  rw [e] at hr
  unfold sjCreate at hr
  simp only [List.head?_cons, Option.getD_some, List.drop_succ_cons, List.drop_zero] at hr
  split at hr
  · cases hr
  · next hne =>
    split at hr
    · cases hr
    · next admin rest hpf =>
      split at hr
      · cases hr
      · next password hpw =>
        split at hr
        · cases hr
        · next h hh =>
          generalize hrec : ({ username := name, password := h, admin := admin, enabled := true, maxNetworks := -1 } : PdUserRec) = r at hr
          have hr1 := congrArg Prod.fst hr
          have hr2 := congrArg Prod.snd hr
          dsimp only at hr1 hr2
          subst hr1
          refine ⟨(store_same _ _ _).1, ?_⟩
          obtain ⟨id, hid⟩ := Option.isSome_iff_exists.1 hr2
          have hstep : sqStep (sqRun ops).1 (.storeUser now r) = sqStoreUser (sqRun ops).1 now r := rfl
          have hrun := sq_run_snoc ops (.storeUser now r)
          rw [hstep] at hrun
          have ht' : SqTimesOK (ops ++ [.storeUser now r]) := times_snoc ht hn (by rw [← hrec]; exact years_zero)
          obtain ⟨l', hl', hp'⟩ := C84_users _ ht'
          have hr0 : r.id = 0 := by rw [← hrec]
          have hall := (C84_success ops (.storeUser now r)).1 (by
            show (sqStep (sqRun ops).1 (.storeUser now r)).2 ≠ none
            rw [hstep, hid]; simp)
          have hperm := listed ht hl
          refine ⟨id, password, h, admin, l', hne, hpw, hh, ?_, ?_, ?_, ?_, ?_⟩
          · rintro rfl
            simp only [parseFlags, Option.some.injEq, Prod.mk.injEq] at hpf
            exact hpf.1.symm
          · rintro rfl
            have : parseFlags sjFormal [b!"-admin"] false = some (true, []) := by decide +kernel
            rw [this] at hpf
            cases hpf
            rfl
          · intro u hu
            obtain ⟨p, hp, rfl⟩ := List.mem_map.1 (hperm.mem_iff.1 hu)
            refine ⟨?_, ?_⟩
            · have := hall hr0 p hp
              rw [← hrec] at this
              exact this
            · have hrel := sq_rel (ops ++ [.storeUser now r])
              have huid := hrel.idU
              rw [hrun] at huid
              dsimp only at huid
              unfold sqKept at huid
              rw [List.foldl_append] at huid
              simp only [List.foldl_cons, List.foldl_nil, hid, sqKeep, hr0, if_true, List.map_append, List.map_cons,
                List.map_nil] at huid
              have := List.nodup_append.1 huid
              exact this.2.2 _ (List.mem_map.2 ⟨p, hp, rfl⟩) _ (by simp)
          · have : sqListUsers (sqRun (ops ++ [.storeUser now r])).1 = some l' := hl'
            rw [hrun] at this
            exact this
          · have hp'' : l'.Perm ((sqKept (sqRun (ops ++ [.storeUser now r])).2).users.map (fun p => ms p.1)) := hp'
            rw [hrun] at hp''
            dsimp only at hp''
            unfold sqKept at hp''
            rw [List.foldl_append] at hp''
            simp only [List.foldl_cons, List.foldl_nil, hid, sqKeep, hr0, if_true, List.map_append, List.map_cons,
              List.map_nil] at hp''
            refine hp''.trans ?_
            rw [← hrec]
            exact (List.perm_append_singleton _ _).trans (List.Perm.cons _ hperm.symm)

/-- `change-password`, when it succeeds, changes the password of the account that was named to the one that was read, and
nothing else: no other setting of the account, no other account, nothing else in the database. -/
theorem C103_change (lib : BcryptLib) (salt : Nat) (now : Int) (input : PwInput) (ops : List PdOp) (ht : SqTimesOK ops)
    (hn : InYears now) (l : List PdUserRec) (hl : sqListUsers (sqRun ops).1 = some l) (name : Str) (args : List Str) (db' : SqDb)
    (hr : sojudb lib salt now input (sqRun ops).1 (b!"change-password" :: name :: args) = (db', true)) :
    SameButUsers (sqRun ops).1 db' ∧
    ∃ password h l', (∃ u ∈ l, u.username = name) ∧ readPassword input = some password ∧ lib.gen salt password = some h ∧
      sqListUsers db' = some l' ∧ l'.Perm (l.map (fun u => if u.username = name then { u with password := h } else u)) := by
  have e : sojudb lib salt now input (sqRun ops).1 (b!"change-password" :: name :: args) =
      sjChange lib salt now input (sqRun ops).1 (name :: args) := rfl
  rw [e] at hr
  unfold sjChange at hr
  change (if name = [] then ((sqRun ops).1, false) else _) = _ at hr
  by_cases hne : name = []
  · rw [if_pos hne] at hr
    cases hr
  · rw [if_neg hne] at hr
    simp only [List.head?_cons, Option.getD_some] at hr
    cases hu : sqGetUser (sqRun ops).1 name with
    | none => rw [hu] at hr; cases hr
    | some u =>
      rw [hu] at hr
      cases hpw : readPassword input with
      | none => rw [hpw] at hr; cases hr
      | some password =>
        rw [hpw] at hr
        cases hh : lib.gen salt password with
        | none => simp only [hh] at hr; cases hr
        | some h =>
          simp only [hh] at hr
          obtain ⟨hnames, hget⟩ := C84_get_user ops ht l hl name u
          obtain ⟨hul, hun⟩ := hget.1 hu
          generalize hrec : ({ u with password := h } : PdUserRec) = r at hr
          have hr1 := congrArg Prod.fst hr
          have hr2 := congrArg Prod.snd hr
          dsimp only at hr1 hr2
          subst hr1
          refine ⟨(store_same _ _ _).1, ?_⟩
          obtain ⟨id, hid⟩ := Option.isSome_iff_exists.1 hr2
          have hstep : sqStep (sqRun ops).1 (.storeUser now r) = sqStoreUser (sqRun ops).1 now r := rfl
          have hrun := sq_run_snoc ops (.storeUser now r)
          rw [hstep] at hrun
          have hy := years_listed ht hl u hul
          have ht' : SqTimesOK (ops ++ [.storeUser now r]) := times_snoc ht hn (by rw [← hrec]; exact hy.1)
          obtain ⟨l', hl', hp'⟩ := C84_users _ ht'
          have hperm := listed ht hl
          have hall := (C84_success ops (.storeUser now r)).1 (by
            show (sqStep (sqRun ops).1 (.storeUser now r)).2 ≠ none
            rw [hstep, hid]; simp)
          have hrn : r.username = name := by rw [← hrec]; exact hun
          have hr0 : r.id ≠ 0 := by
            intro h0
            obtain ⟨p, hp, he⟩ := List.mem_map.1 (hperm.mem_iff.1 hul)
            apply hall h0 p hp
            rw [hrn, ← hun, ← he]
          refine ⟨password, h, l', ⟨u, hul, hun⟩, rfl, hh, ?_, ?_⟩
          · have : sqListUsers (sqRun (ops ++ [.storeUser now r])).1 = some l' := hl'
            rw [hrun] at this
            exact this
          · have hp'' : l'.Perm ((sqKept (sqRun (ops ++ [.storeUser now r])).2).users.map (fun p => ms p.1)) := hp'
            rw [hrun] at hp''
            dsimp only at hp''
            unfold sqKept at hp'' hperm
            rw [List.foldl_append] at hp''
            simp only [List.foldl_cons, List.foldl_nil, hid, sqKeep, hr0, if_false, List.map_map] at hp''
            refine hp''.trans (List.Perm.trans ?_ (hperm.map _).symm)
            rw [List.map_map]
            apply List.Perm.of_eq
            apply List.map_congr_left
            intro p hp
            simp only [Function.comp_apply]
            by_cases hpn : p.1.username = name
            · have hpl : ms p.1 ∈ l := hperm.mem_iff.2 (List.mem_map.2 ⟨p, hp, rfl⟩)
              have hpu : ms p.1 = u := eq_of_nodup_map hnames hpl hul (by rw [hun]; exact hpn)
              rw [if_pos (by rw [hrn]; exact hpn), if_pos hpn, ← hrec, ← hpu]
              simp [ms, ms_ms]
            · rw [if_neg (by rw [hrn]; exact hpn), if_neg hpn]

/-- When it does not succeed, nothing has changed; in particular an account is not created under a name somebody has, and
the password of nobody cannot be changed. -/
theorem C103_failed (lib : BcryptLib) (salt : Nat) (now : Int) (input : PwInput) (db db' : SqDb) (args : List Str)
    (hr : sojudb lib salt now input db args = (db', false)) : db' = db := by
  have key : ∀ r : SqDb × Option Nat, (r.2 = none → r.1 = db) → (r.1, r.2.isSome) = (db', false) → db' = db := by
    intro r h he
    have h1 := congrArg Prod.fst he
    have h2 := congrArg Prod.snd he
    dsimp only at h1 h2
    rw [← h1]
    exact h (by simpa using h2)
  unfold sojudb at hr
  dsimp only at hr
  split at hr
  · unfold sjCreate at hr
    dsimp only at hr
    repeat' split at hr
    all_goals first
      | exact (congrArg Prod.fst hr).symm
      | exact key _ (store_same _ _ _).2 hr
  · split at hr
    · unfold sjChange at hr
      dsimp only at hr
      repeat' split at hr
      all_goals first
        | exact (congrArg Prod.fst hr).symm
        | exact key _ (store_same _ _ _).2 hr
    · exact (congrArg Prod.fst hr).symm

/-- It does succeed: a new name, a password that can be read and hashed, and the flag `-admin` or none make an account;
and the name of an account and such a password change its password. -/
theorem C103_succeeds (lib : BcryptLib) (salt : Nat) (now : Int) (input : PwInput) (ops : List PdOp) (ht : SqTimesOK ops)
    (l : List PdUserRec) (hl : sqListUsers (sqRun ops).1 = some l) (name password h : Str) (hne : name ≠ [])
    (hp : readPassword input = some password) (hh : lib.gen salt password = some h) :
    ((∀ u ∈ l, u.username ≠ name) → ∀ flags, flags = [] ∨ flags = [b!"-admin"] →
      (sojudb lib salt now input (sqRun ops).1 (b!"create-user" :: name :: flags)).2 = true) ∧
    ((∃ u ∈ l, u.username = name) →
      (sojudb lib salt now input (sqRun ops).1 [b!"change-password", name]).2 = true) := by
  have hperm := listed ht hl
  refine ⟨?_, ?_⟩
  · intro hfree flags hf
    have hpf : ∃ admin rest, parseFlags sjFormal flags false = some (admin, rest) := by
      rcases hf with rfl | rfl
      · exact ⟨false, [], rfl⟩
      · exact ⟨true, [], by decide +kernel⟩
    obtain ⟨admin, rest, hpf⟩ := hpf
    show (sjCreate lib salt now input (sqRun ops).1 (name :: flags)).2 = true
    unfold sjCreate
    simp only [List.head?_cons, Option.getD_some, List.drop_succ_cons, List.drop_zero, if_neg hne, hpf, hp, hh]
    have := (C84_success ops (.storeUser now ⟨0, name, h, [], [], admin, true, 0, -1⟩)).2 (by
        intro _ p hp
        exact hfree (ms p.1) (hperm.mem_iff.2 (List.mem_map.2 ⟨p, hp, rfl⟩)))
    exact Option.isSome_iff_ne_none.2 this
  · rintro ⟨u, hu, hun⟩
    have hg := (C84_get_user ops ht l hl name u).2.2 ⟨hu, hun⟩
    have hg : sqGetUser (sqRun ops).1 name = some u := hg
    show (sjChange lib salt now input (sqRun ops).1 [name]).2 = true
    unfold sjChange
    simp only [List.head?_cons, Option.getD_some, if_neg hne, hg, hp, hh]
    have := (C84_success ops (.storeUser now { u with password := h })).2 (by
      intro h0
      exfalso
      obtain ⟨p, hp, rfl⟩ := List.mem_map.1 (hperm.mem_iff.1 hu)
      have := ((sq_rel ops).base.uPos p hp).1
      exact absurd h0 (by show p.1.id ≠ 0; omega))
    exact Option.isSome_iff_ne_none.2 this

/-- With the new password one gets in, as the authentication of the server sees the account (C79). -/
theorem C103_login (lib : BcryptLib) (hb : BcryptWorks lib) (salt salt' : Nat) (ok : Bool) (u : PdUserRec) (password h : Str)
    (hh : lib.gen salt password = some h) :
    (internalAuth lib salt' ok (some (acctOf { u with password := h })) password).1 = .ok := by
  obtain ⟨h1, h2, h3⟩ := hb salt password h hh
  simp [internalAuth, checkPassword, acctOf, h1, h2, h3]

/-- The password is what was typed on the terminal, or the first line of the standard input, with or without line end (of
either kind), whatever follows it. -/
theorem C103_input (password rest : Str) (h1 : 10 ∉ password) (h2 : password.getLast? ≠ some 13) (h3 : password ≠ [])
    (h4 : password.length + 1 < 65536) :
    readPassword (.terminal (some password)) = some password ∧ readPassword (.terminal none) = none ∧
    readPassword (.stdin []) = none ∧ readPassword (.stdin password) = some password ∧
    readPassword (.stdin (password ++ 10 :: rest)) = some password ∧
    readPassword (.stdin (password ++ 13 :: 10 :: rest)) = some password := by
  have hl : password.length ≠ 0 := fun h => h3 (List.length_eq_zero_iff.1 h)
  have hd : pwDropCR password = password := by unfold pwDropCR; rw [if_neg h2]
  refine ⟨rfl, rfl, by decide, ?_, ?_, ?_⟩
  · unfold readPassword pwScan
    simp only [cutStr_byte_none _ _ h1, h3, false_or, Nat.not_le.2 (by omega : password.length < 65536), if_false, hd, if_neg hl]
  · unfold readPassword pwScan
    simp only [cutStr_byte _ _ _ h1, (by omega : password.length < 65536), if_true, hd, if_neg hl]
  · have h1' : 10 ∉ password ++ [13] := by simp [h1]
    have hd' : pwDropCR (password ++ [13]) = password := by unfold pwDropCR; simp
    unfold readPassword pwScan
    rw [show password ++ 13 :: 10 :: rest = (password ++ [13]) ++ 10 :: rest by simp]
    simp only [cutStr_byte _ _ _ h1', List.length_append, List.length_singleton, h4, if_true, hd', if_neg hl]

/-- Anything but `create-user`, `change-password` and `help` is an error. -/
theorem C103_unknown (lib : BcryptLib) (salt : Nat) (now : Int) (input : PwInput) (db : SqDb) (cmd : Str) (args : List Str)
    (h1 : cmd ≠ b!"create-user") (h2 : cmd ≠ b!"change-password") (h3 : cmd ≠ b!"help") :
    sojudb lib salt now input db (cmd :: args) = (db, false) := by
  unfold sojudb
  simp only [List.head?_cons, Option.getD_some, if_neg h1, if_neg h2, h3, decide_false]

/-! ## What does not hold -/

private def plainLib : BcryptLib := ⟨fun h p => decide (h = 36 :: p), fun _ => some 10, fun _ p => some (36 :: p)⟩

private theorem plainLib_works : BcryptWorks plainLib := by
  intro salt p h hh
  simp only [plainLib, Option.some.injEq] at hh
  subst hh
  simp [plainLib, bcryptDefaultCost]

/-- While the server runs, a change of a password is undone by the next thing the server stores about the user, which it
does as soon as one of their clients does something: it writes the record it has in memory, with the old password
(user.go:1192-1204, 1334-1342). -/
theorem C103_running_violated : ∃ (lib : BcryptLib) (ops : List PdOp) (memory : PdUserRec) (db' db'' : SqDb) (t : Int),
    BcryptWorks lib ∧ SqTimesOK ops ∧ sqGetUser (sqRun ops).1 b!"ann" = some memory ∧
    sojudb lib 0 1000000000 (.stdin b!"new") (sqRun ops).1 [b!"change-password", b!"ann"] = (db', true) ∧
    (sqStoreUser db' 2000000000 { memory with interactedAt := t }) = (db'', some 1) ∧
    ∃ u, sqGetUser db'' b!"ann" = some u ∧ (internalAuth lib 0 true (some (acctOf u)) b!"old").1 = .ok ∧
      (internalAuth lib 0 true (some (acctOf u)) b!"new").1 = .invalid := by
  refine ⟨plainLib, [.storeUser 0 { username := b!"ann", password := b!"$old" }], { id := 1, username := b!"ann", password := b!"$old" },
    _, _, 1000000000, plainLib_works, ⟨?_, by simp, by simp⟩, by decide +kernel, Prod.ext rfl (by decide +kernel),
    Prod.ext rfl (by decide +kernel), { id := 1, username := b!"ann", password := b!"$old", interactedAt := 1000000000 },
    by decide +kernel, by decide +kernel, by decide +kernel⟩
  intro now r h
  simp only [List.mem_singleton, PdOp.storeUser.injEq] at h
  obtain ⟨rfl, rfl⟩ := h
  exact ⟨years_zero, years_zero⟩

/-- A flag before the name is taken for the name: the account is called `-admin`, and is not an administrator. -/
theorem C103_flag_violated : ∃ db' : SqDb,
    sojudb plainLib 0 0 (.stdin b!"pw") {} [b!"create-user", b!"-admin", b!"ann"] = (db', true) ∧
    sqGetUser db' b!"ann" = none ∧
    sqGetUser db' b!"-admin" = some { id := 1, username := b!"-admin", password := b!"$pw" } :=
  ⟨_, Prod.ext rfl (by decide +kernel), by decide +kernel, by decide +kernel⟩

/-- On a terminal the empty password is accepted (it is not on the standard input). -/
theorem C103_empty_violated : ∃ db' : SqDb,
    sojudb plainLib 0 0 (.terminal (some [])) {} [b!"create-user", b!"ann"] = (db', true) ∧
    sqGetUser db' b!"ann" = some { id := 1, username := b!"ann", password := b!"$" } ∧
    (internalAuth plainLib 0 true ((sqGetUser db' b!"ann").map acctOf) []).1 = .ok ∧
    readPassword (.stdin [10]) = none :=
  ⟨_, Prod.ext rfl (by decide +kernel), by decide +kernel, by decide +kernel, by decide +kernel⟩

private theorem take_noSep : ∀ (s : Str) (i : Nat), firstSep s = some i → ∀ c ∈ s.take i, isLoginSep c = false := by
  intro s
  induction s with
  | nil => intro i h; cases h
  | cons x s ih =>
    intro i h c hc
    unfold firstSep at h
    split at h
    · cases h; cases hc
    · next hx =>
      obtain ⟨j, hj, rfl⟩ := Option.map_eq_some_iff.1 h
      rw [List.take_succ_cons, List.mem_cons] at hc
      rcases hc with rfl | hc
      · simpa using hx
      · exact ih j hj c hc

private theorem none_noSep : ∀ s : Str, firstSep s = none → ∀ c ∈ s, isLoginSep c = false := by
  intro s
  induction s with
  | nil => intro _ c hc; cases hc
  | cons x s ih =>
    intro h c hc
    unfold firstSep at h
    split at h
    · cases h
    · next hx =>
      rcases List.mem_cons.1 hc with rfl | hc
      · simpa using hx
      · exact ih (by simpa using h) c hc

private theorem login_noSep (login : Str) : ∀ c ∈ (unmarshalUsername login).1, isLoginSep c = false := by
  have e : (unmarshalUsername login).1 = match firstSep login with | some i => login.take i | none => login := by
    unfold unmarshalUsername
    rfl
  rw [e]
  cases h : firstSep login with
  | some i => exact take_noSep login i h
  | none => exact none_noSep login h

/-- An account can be created under a name with which nobody can log in: what follows a slash or an at sign is never
taken for a part of the name. -/
theorem C103_name_violated : ∃ (name : Str) (db' : SqDb),
    sojudb plainLib 0 0 (.stdin b!"pw") {} [b!"create-user", name] = (db', true) ∧
    (∃ u, sqGetUser db' name = some u) ∧ ∀ login, (unmarshalUsername login).1 ≠ name := by
  refine ⟨b!"ann@home", _, Prod.ext rfl (by decide +kernel), ⟨_, rfl⟩, ?_⟩
  intro login he
  have := login_noSep login 64 (by rw [he]; decide)
  exact absurd this (by decide)

/-! ## The hypotheses are met -/

private def people : List PdOp :=
  [.storeUser 0 { username := b!"ann", password := b!"$a", admin := true }, .storeUser 5000000 { username := b!"bob" }]

example : SqTimesOK people ∧ (sojudb plainLib 7 1000000000 (.stdin b!"secret\nx") (sqRun people).1
      [b!"create-user", b!"eve", b!"-admin"]).2 = true ∧
    (sojudb plainLib 7 1000000000 (.stdin b!"secret") (sqRun people).1 [b!"change-password", b!"bob"]).2 = true ∧
    sojudb plainLib 7 0 (.stdin b!"pw") (sqRun people).1 [b!"create-user", b!"bob"] = ((sqRun people).1, false) := by
  refine ⟨⟨?_, ?_, ?_⟩, by decide +kernel, by decide +kernel, ?_⟩
  · intro now r h
    simp only [people, List.mem_cons, List.not_mem_nil, or_false, PdOp.storeUser.injEq] at h
    rcases h with ⟨rfl, rfl⟩ | ⟨rfl, rfl⟩ <;> exact ⟨by unfold InYears dayNanos; omega, years_zero⟩
  · intro n r h
    simp [people] at h
  · intro a b c d h
    simp [people] at h
  · rfl

example : (sqListUsers (sojudb plainLib 7 1000000000 (.stdin b!"secret\nx") (sqRun people).1
      [b!"create-user", b!"eve", b!"-admin"]).1).map (·.map (fun u => (u.id, u.username, u.password, u.admin))) =
    some [(1, b!"ann", b!"$a", true), (2, b!"bob", [], false), (3, b!"eve", b!"$secret", true)] := by decide +kernel

end Verif.Props
