import Verif.Spec.AuthDriver
import Verif.Proof.GoMap
import Verif.Proof.Util
import Verif.Proof.Base64
import Verif.Props.Register

/-! # C79: only the right credentials log in -/

namespace Verif.Props
open Verif.Model Verif.Spec Verif.Proof

/-! ## The password in the database -/

/-- A toy bcrypt: a hash is the cost followed by the password. -/
private def exBcrypt : BcryptLib where
  compare := fun h p => decide (h.drop 1 = p)
  cost := fun h => h.head?
  gen := fun _ p => if p.length ≤ 72 then some (10 :: p) else none

private theorem check_some {lib : BcryptLib} {salt : Nat} {u u' : AcctRow} {p : Str} {b : Bool}
    (h : checkPassword lib salt u p = some (b, u')) :
    u.password ≠ [] ∧ lib.compare u.password p = true ∧ ∃ c, lib.cost u.password = some c ∧
      (b = true ↔ c < bcryptDefaultCost) ∧ (b = false → u' = u) ∧
      (b = true → ∃ h, lib.gen salt p = some h ∧ u' = { u with password := h }) := by
  unfold checkPassword at h
  split at h
  · cases h
  next h1 =>
  split at h
  next h2 =>
    split at h
    · cases h
    next c hc =>
    refine ⟨h1, h2, c, hc, ?_⟩
    split at h
    next h3 =>
      unfold setPassword at h
      cases hg : lib.gen salt p with
      | none => rw [hg] at h; cases h
      | some x =>
        rw [hg] at h
        simp only [Option.map_some, Option.some.injEq, Prod.mk.injEq] at h
        obtain ⟨rfl, rfl⟩ := h
        exact ⟨by simp [h3], by simp, fun _ => ⟨x, rfl, rfl⟩⟩
    next h3 =>
      simp only [Option.some.injEq, Prod.mk.injEq] at h
      obtain ⟨rfl, rfl⟩ := h
      exact ⟨by simp [h3], by simp, by simp⟩
  · cases h

/-- A login by itself is accepted if and only if the account has a password and this is it (and, if the hash is of an
older kind, a new one can be made and stored). It changes nothing but the hash, which becomes another hash of the same
password. -/
theorem C79_internal (lib : BcryptLib) (salt : Nat) (storeOk : Bool) (row : Option AcctRow) (p : Str)
    (hc : ∀ h, lib.compare h p = true → lib.cost h ≠ none) :
    ((internalAuth lib salt storeOk row p).1 = .ok ↔ ∃ u, row = some u ∧ u.password ≠ [] ∧ lib.compare u.password p = true ∧
      ((∃ c, lib.cost u.password = some c ∧ c < bcryptDefaultCost) → lib.gen salt p ≠ none ∧ storeOk = true)) ∧
    ∀ u', (internalAuth lib salt storeOk row p).2 = some u' → ∃ u h c, row = some u ∧ u' = { u with password := h } ∧
      lib.gen salt p = some h ∧ lib.cost u.password = some c ∧ c < bcryptDefaultCost ∧ lib.compare u.password p = true := by
  unfold internalAuth
  cases row with
  | none => simp
  | some u =>
    dsimp only
    cases hk : checkPassword lib salt u p with
    | none =>
      refine ⟨⟨fun h => (by cases h), ?_⟩, fun u' h => (by cases h)⟩
      rintro ⟨u', he, h1, h2, h3⟩
      cases he
      exfalso
      unfold checkPassword at hk
      rw [if_neg h1, if_pos h2] at hk
      split at hk
      next hn => exact hc _ h2 hn
      next c hcc =>
      split at hk
      next hl =>
        obtain ⟨h4, -⟩ := h3 ⟨c, hcc, hl⟩
        unfold setPassword at hk
        cases hg : lib.gen salt p with
        | none => exact h4 hg
        | some x => rw [hg] at hk; cases hk
      · cases hk
    | some x =>
      obtain ⟨b, u1⟩ := x
      obtain ⟨h1, h2, c, hcc, h3, h4, h5⟩ := check_some hk
      cases b with
      | false =>
        refine ⟨⟨fun _ => ⟨u, rfl, h1, h2, ?_⟩, fun _ => rfl⟩, fun u' h => (by cases h)⟩
        rintro ⟨c', hc', hl⟩
        rw [hcc] at hc'
        cases hc'
        exact absurd (h3.mpr hl) (by simp)
      | true =>
        obtain ⟨x, hx, he⟩ := h5 rfl
        dsimp only
        cases storeOk with
        | true =>
          refine ⟨⟨fun _ => ⟨u, rfl, h1, h2, fun _ => ⟨by rw [hx]; simp, rfl⟩⟩, fun _ => rfl⟩, ?_⟩
          intro u' h
          simp only [if_true, Option.some.injEq] at h
          subst h
          exact ⟨u, x, c, rfl, he, hx, hcc, h3.mp rfl, h2⟩
        | false =>
          refine ⟨⟨fun h => (by cases h), ?_⟩, fun u' h => (by cases h)⟩
          rintro ⟨u', he', h1', h2', h6⟩
          cases he'
          exact absurd (h6 ⟨c, hcc, h3.mp rfl⟩).2 (by simp)

example : (∀ h, exBcrypt.compare h b!"secret" = true → exBcrypt.cost h ≠ none) ∧
    internalAuth exBcrypt 0 true (some ⟨1, 4 :: b!"secret", false, true, []⟩) b!"secret" =
      (.ok, some ⟨1, 10 :: b!"secret", false, true, []⟩) ∧
    (internalAuth exBcrypt 0 true (some ⟨1, 4 :: b!"secret", false, true, []⟩) b!"Secret").1 = .invalid := by
  refine ⟨?_, by decide, by decide⟩
  intro h hc
  cases h with
  | nil => revert hc; decide
  | cons c s => simp [exBcrypt]

/-- What is known of a login after a history. -/
private def LoginOk (lib : BcryptLib) (st : AcctState) (ops : List AcctOp) (k : Nat) (ph : LoginPhase) : Prop :=
  ph = .done false ∨ ∃ pre post pw row, ops = pre ++ .begin k pw :: post ∧ (acctRun lib st pre).db = some row ∧
    (ph = .read row pw ∨ (row.password ≠ [] ∧ lib.compare row.password pw = true))

private theorem login_inv (lib : BcryptLib) (st : AcctState) (h0 : st.logins = []) (ops : List AcctOp) :
    ∀ k ph, GoMap.get (acctRun lib st ops).logins k = some ph → LoginOk lib st ops k ph := by
  induction ops using snocInd with
  | nil =>
    intro k ph h
    simp only [acctRun, List.foldl_nil, h0] at h
    cases h
  | snoc ops op ih =>
    have hr : acctRun lib st (ops ++ [op]) = acctStep lib (acctRun lib st ops) op := by simp [acctRun]
    have grow : ∀ k ph, LoginOk lib st ops k ph → LoginOk lib st (ops ++ [op]) k ph := by
      intro k ph h
      rcases h with h | ⟨pre, post, pw, row, rfl, h2, h3⟩
      · exact .inl h
      · exact .inr ⟨pre, post ++ [op], pw, row, by simp, h2, h3⟩
    have keep : ∀ k' ph', LoginOk lib st (ops ++ [op]) k' ph' →
        ∀ k ph, GoMap.get (GoMap.set (acctRun lib st ops).logins k' ph') k = some ph → LoginOk lib st (ops ++ [op]) k ph := by
      intro k' ph' hnew k ph h
      rw [mget_mset] at h
      split at h
      next he => subst he; cases h; exact hnew
      · exact grow k ph (ih k ph h)
    intro k ph h
    rw [hr] at h
    have same : GoMap.get (acctRun lib st ops).logins k = some ph → LoginOk lib st (ops ++ [op]) k ph :=
      fun h => grow k ph (ih k ph h)
    cases op with
    | begin k' pw =>
      simp only [acctStep] at h
      split at h
      · exact keep k' _ (.inl rfl) k ph h
      next row hdb => exact keep k' _ (.inr ⟨ops, [], pw, row, by simp, hdb, .inl rfl⟩) k ph h
    | check k' salt =>
      simp only [acctStep] at h
      split at h
      next row pw hl =>
        have fin : ∀ ph', row.password ≠ [] ∧ lib.compare row.password pw = true →
            LoginOk lib st (ops ++ [.check k' salt]) k' ph' := by
          intro ph' hc
          rcases grow k' _ (ih k' _ hl) with h | ⟨pre, post, pw', row', h1, h2, h3⟩
          · cases h
          · rcases h3 with h3 | h3
            · cases h3; exact .inr ⟨pre, post, pw, row, h1, h2, .inr hc⟩
            · exact .inr ⟨pre, post, pw', row', h1, h2, .inr h3⟩
        split at h
        · exact keep k' _ (.inl rfl) k ph h
        next hk =>
          obtain ⟨h1, h2, -⟩ := check_some hk
          exact keep k' _ (fin _ ⟨h1, h2⟩) k ph h
        next hk =>
          obtain ⟨h1, h2, -⟩ := check_some hk
          exact keep k' _ (fin _ ⟨h1, h2⟩) k ph h
      · exact same h
    | store k' ok =>
      simp only [acctStep] at h
      split at h
      next row hl =>
        split at h
        · refine keep k' _ ?_ k ph h
          rcases grow k' _ (ih k' _ hl) with h | ⟨pre, post, pw', row', h1, h2, h3⟩
          · cases h
          · rcases h3 with h3 | h3
            · cases h3
            · exact .inr ⟨pre, post, pw', row', h1, h2, .inr h3⟩
        · exact keep k' _ (.inl rfl) k ph h
      · exact same h
    | update r ok =>
      simp only [acctStep] at h
      split at h
      · exact same h
      · split at h
        · exact same h
        · exact same h
    | create r =>
      simp only [acctStep] at h
      split at h
      · exact same h
      · exact same h
    | delete => exact same h

/-- Whatever else happens to the account, a login that is accepted came with the password the account had in the
database when the login began; an account without a password, or without a row, lets nobody in. -/
theorem C79_accepted (lib : BcryptLib) (init : Option AcctRow) (ops : List AcctOp) (k : Nat)
    (h : GoMap.get (acctRun lib ⟨init, init, []⟩ ops).logins k = some (.done true)) :
    ∃ pre post pw row, ops = pre ++ .begin k pw :: post ∧ (acctRun lib ⟨init, init, []⟩ pre).db = some row ∧
      row.password ≠ [] ∧ lib.compare row.password pw = true := by
  rcases login_inv lib ⟨init, init, []⟩ rfl ops k _ h with h | ⟨pre, post, pw, row, h1, h2, h3⟩
  · cases h
  · rcases h3 with h3 | h3
    · cases h3
    · exact ⟨pre, post, pw, row, h1, h2, h3⟩

example : GoMap.get (acctRun exBcrypt ⟨none, none, []⟩ [.create ⟨1, 4 :: b!"secret", false, true, []⟩, .begin 0 b!"secret",
    .begin 1 b!"guess", .check 0 7, .check 1 8, .store 0 true]).logins 0 = some (.done true) := by decide +kernel

/-- With hashes of the current kind, which is what the bouncer makes, the account is at all times what the user and the
administrators last set it to, however logins and updates are interleaved. Missing: hashes of an older kind, see
`C79_race_violated`. -/
theorem C79_harmless_partial (lib : BcryptLib) (init : Option AcctRow) (ops : List AcctOp)
    (h0 : ∀ r, init = some r → Current lib r)
    (h1 : ∀ r ok, .update r ok ∈ ops → Current lib r) (h2 : ∀ r, .create r ∈ ops → Current lib r) :
    (acctRun lib ⟨init, init, []⟩ ops).db = lastSet init ops := by
  have gen : ∀ (ops : List AcctOp) (st : AcctState), st.db = st.mem → (∀ r, st.mem = some r → Current lib r) →
      (∀ k ph, GoMap.get st.logins k = some ph → (∃ b, ph = .done b) ∨ ∃ row pw, ph = .read row pw ∧ Current lib row) →
      (∀ r ok, .update r ok ∈ ops → Current lib r) → (∀ r, .create r ∈ ops → Current lib r) →
      (acctRun lib st ops).db = lastSet st.mem ops := by
    intro ops
    induction ops with
    | nil => intro st hd _ _ _ _; exact hd
    | cons op ops ih =>
      intro st hd hm hl hu hc
      have hu' : ∀ r ok, .update r ok ∈ ops → Current lib r := fun r ok h => hu r ok (List.mem_cons_of_mem _ h)
      have hc' : ∀ r, .create r ∈ ops → Current lib r := fun r h => hc r (List.mem_cons_of_mem _ h)
      have hr : acctRun lib st (op :: ops) = acctRun lib (acctStep lib st op) ops := by simp [acctRun]
      rw [hr]
      have put : ∀ k' (ph' : LoginPhase), ((∃ b, ph' = .done b) ∨ ∃ row pw, ph' = .read row pw ∧ Current lib row) →
          ∀ k ph, GoMap.get (GoMap.set st.logins k' ph') k = some ph →
            (∃ b, ph = .done b) ∨ ∃ row pw, ph = .read row pw ∧ Current lib row := by
        intro k' ph' hn k ph h
        rw [mget_mset] at h
        split at h
        next he => cases h; exact hn
        · exact hl k ph h
      cases op with
      | begin k pw =>
        simp only [acctStep, lastSet]
        split
        · exact ih _ hd hm (put k _ (.inl ⟨_, rfl⟩)) hu' hc'
        next row hdb => exact ih _ hd hm (put k _ (.inr ⟨row, pw, rfl, hm row (by rw [← hd, hdb])⟩)) hu' hc'
      | check k salt =>
        simp only [acctStep, lastSet]
        split
        next row pw hg =>
          split
          · exact ih _ hd hm (put k _ (.inl ⟨_, rfl⟩)) hu' hc'
          · exact ih _ hd hm (put k _ (.inl ⟨_, rfl⟩)) hu' hc'
          next hk =>
            exfalso
            obtain ⟨h1, -, c, hcc, h3, -⟩ := check_some hk
            rcases hl k _ hg with ⟨b, hb⟩ | ⟨row', pw', he, hcur⟩
            · cases hb
            · cases he
              rcases hcur with h | h
              · exact h1 h
              · have := h c hcc
                have := h3.mp rfl
                omega
        · exact ih _ hd hm hl hu' hc'
      | store k ok =>
        simp only [acctStep, lastSet]
        split
        next row hg =>
          exfalso
          rcases hl k _ hg with ⟨b, hb⟩ | ⟨row', pw', he, -⟩
          · cases hb
          · cases he
        · exact ih _ hd hm hl hu' hc'
      | update r ok =>
        have hcur := hu r ok List.mem_cons_self
        simp only [acctStep, lastSet]
        split
        next hmn =>
          rw [ih _ hd hm hl hu' hc', hmn]
          cases ok <;> rfl
        next cur hms =>
          split
          next hok =>
            rw [hms]
            refine ih _ ?_ ?_ hl hu' hc'
            · simp only [storeAcct, hd, hms, Option.map_some]
            · intro r' he
              simp only [Option.some.injEq] at he
              subst he
              exact hcur
          · exact ih _ hd hm hl hu' hc'
      | create r =>
        have hcur := hc r List.mem_cons_self
        simp only [acctStep, lastSet]
        split
        next hmn =>
          rw [hmn]
          refine ih _ rfl ?_ hl hu' hc'
          intro r' he
          cases he
          exact hcur
        next cur hms =>
          rw [ih _ hd hm hl hu' hc', hms]
          rfl
      | delete =>
        simp only [acctStep, lastSet]
        exact ih _ rfl nofun hl hu' hc'
  exact gen ops ⟨init, init, []⟩ rfl h0 nofun h1 h2

example : Current exBcrypt ⟨1, 10 :: b!"secret", false, true, []⟩ ∧ Current exBcrypt ⟨1, [], true, false, []⟩ ∧
    (acctRun exBcrypt ⟨none, none, []⟩ [.create ⟨1, 10 :: b!"secret", false, true, []⟩, .begin 0 b!"secret",
      .update ⟨1, [], true, false, []⟩ true, .check 0 7, .store 0 true]).db = some ⟨1, [], true, false, []⟩ := by
  refine ⟨.inr ?_, .inl rfl, by decide +kernel⟩
  intro c h
  cases h
  decide

/-- Whatever kinds of hashes there are, as long as no login succeeds in storing a new one the account is at all times
what the user and the administrators last set it to: logins that are turned down, and those whose new hash cannot be
stored, change nothing. -/
theorem C79_kept (lib : BcryptLib) (init : Option AcctRow) (ops : List AcctOp) (h : ∀ k, .store k true ∉ ops) :
    (acctRun lib ⟨init, init, []⟩ ops).db = lastSet init ops := by
  have gen : ∀ (ops : List AcctOp) (st : AcctState), st.db = st.mem → (∀ k, .store k true ∉ ops) →
      (acctRun lib st ops).db = lastSet st.mem ops := by
    intro ops
    induction ops with
    | nil => intro st hd _; exact hd
    | cons op ops ih =>
      intro st hd hs
      have hs' : ∀ k, .store k true ∉ ops := fun k h => hs k (List.mem_cons_of_mem _ h)
      have hr : acctRun lib st (op :: ops) = acctRun lib (acctStep lib st op) ops := by simp [acctRun]
      rw [hr]
      cases op with
      | begin k pw =>
        simp only [acctStep, lastSet]
        split <;> exact ih _ hd hs'
      | check k salt =>
        simp only [acctStep, lastSet]
        split
        · split <;> exact ih _ hd hs'
        · exact ih _ hd hs'
      | store k ok =>
        cases ok with
        | true => exact absurd List.mem_cons_self (hs k)
        | false =>
          simp only [acctStep, lastSet]
          split <;> exact ih _ hd hs'
      | update r ok =>
        simp only [acctStep, lastSet]
        split
        next hmn =>
          rw [ih _ hd hs', hmn]
          cases ok <;> rfl
        next cur hms =>
          split
          next hok =>
            rw [hms]
            refine ih _ ?_ hs'
            simp only [storeAcct, hd, hms, Option.map_some]
          · exact ih _ hd hs'
      | create r =>
        simp only [acctStep, lastSet]
        split
        next hmn =>
          rw [hmn]
          exact ih _ rfl hs'
        next cur hms =>
          rw [ih _ hd hs', hms]
          rfl
      | delete =>
        simp only [acctStep, lastSet]
        exact ih _ rfl hs'
  exact gen ops ⟨init, init, []⟩ rfl h

example : let ops : List AcctOp := [.create ⟨1, 4 :: b!"secret", false, true, []⟩, .begin 0 b!"secret", .begin 1 b!"guess",
      .check 0 7, .check 1 8, .store 0 false]
    (∀ k, .store k true ∉ ops) ∧
    GoMap.get (acctRun exBcrypt ⟨none, none, []⟩ ops).logins 0 = some (.done false) ∧
    (acctRun exBcrypt ⟨none, none, []⟩ ops).db = some ⟨1, 4 :: b!"secret", false, true, []⟩ := by
  refine ⟨?_, by decide +kernel, by decide +kernel⟩
  intro k
  simp

/-- auth/internal.go:18-36: a login with a hash of an older kind stores the whole row it has read. Whatever has been
changed since is undone: a new password no longer works and the old one does, and an account that was disabled, or whose
administrator was demoted, is as before. -/
theorem C79_race_violated (lib : BcryptLib) (old new : AcctRow) (p h' : Str) (c salt : Nat)
    (h1 : old.password ≠ []) (h2 : lib.compare old.password p = true) (h3 : lib.cost old.password = some c)
    (h4 : c < bcryptDefaultCost) (h5 : lib.gen salt p = some h') (h6 : lib.compare h' p = true)
    (h7 : lib.compare new.password p = false) :
    (acctRun lib ⟨some old, some old, []⟩ [.begin 0 p, .check 0 salt, .update new true, .store 0 true]).db =
      some { old with password := h' } ∧ ¬ LoginsHarmless lib := by
  have hck : checkPassword lib salt old p = some (true, { old with password := h' }) := by
    simp [checkPassword, h1, h2, h3, h4, setPassword, h5]
  have hrun : (acctRun lib ⟨some old, some old, []⟩ [.begin 0 p, .check 0 salt, .update new true, .store 0 true]).db =
      some { old with password := h' } := by
    simp [acctRun, acctStep, mget_mset, hck, storeAcct]
  refine ⟨hrun, fun hl => ?_⟩
  have hls : lastSet (some old) [.begin 0 p, .check 0 salt, .update new true, .store 0 true] = some { new with id := old.id } := by
    simp [lastSet]
  rcases hl (some old) [.begin 0 p, .check 0 salt, .update new true, .store 0 true] with h | ⟨r, r', e1, e2, -, e4⟩
  · rw [hrun, hls] at h
    simp only [Option.some.injEq, AcctRow.mk.injEq] at h
    rw [h.2.1, h7] at h6
    cases h6
  · rw [hrun] at e1
    rw [hls] at e2
    cases e1
    cases e2
    have := e4 p
    dsimp only at this
    rw [h6, h7] at this
    cases this

example : exBcrypt.compare (4 :: b!"leaked") b!"leaked" = true ∧ exBcrypt.cost (4 :: b!"leaked") = some 4 ∧
    exBcrypt.gen 0 b!"leaked" = some (10 :: b!"leaked") ∧ exBcrypt.compare (10 :: b!"leaked") b!"leaked" = true ∧
    exBcrypt.compare (10 :: b!"fresh") b!"leaked" = false := by decide

/-- The loop of the user goes on with the record it has loaded, so that the next time it stores it, which it does as soon
as the client is connected (user.go:1334-1342), the hash is the older one again. -/
theorem C79_undone_violated (lib : BcryptLib) (old : AcctRow) (p h' rest : Str) (c c' salt : Nat)
    (h1 : old.password ≠ []) (h2 : lib.compare old.password p = true) (h3 : lib.cost old.password = some c)
    (h4 : c < bcryptDefaultCost) (h5 : lib.gen salt p = some h') (h6 : lib.cost h' = some c') (h7 : bcryptDefaultCost ≤ c') :
    (acctRun lib ⟨some old, some old, []⟩ [.begin 0 p, .check 0 salt, .store 0 true]).db = some { old with password := h' } ∧
    (acctRun lib ⟨some old, some old, []⟩ [.begin 0 p, .check 0 salt, .store 0 true, .update { old with rest := rest } true]).db =
      some { old with rest := rest } ∧ ¬ UpgradesStay lib := by
  have hck : checkPassword lib salt old p = some (true, { old with password := h' }) := by
    simp [checkPassword, h1, h2, h3, h4, setPassword, h5]
  have r1 : (acctRun lib ⟨some old, some old, []⟩ [.begin 0 p, .check 0 salt, .store 0 true]).db = some { old with password := h' } := by
    simp [acctRun, acctStep, mget_mset, hck, storeAcct]
  have r2 : ∀ rest, (acctRun lib ⟨some old, some old, []⟩ [.begin 0 p, .check 0 salt, .store 0 true, .update { old with rest := rest } true]).db =
      some { old with rest := rest } := by
    intro rest
    simp [acctRun, acctStep, mget_mset, hck, storeAcct]
  have rm : (acctRun lib ⟨some old, some old, []⟩ [.begin 0 p, .check 0 salt, .store 0 true]).mem = some old := by
    simp [acctRun, acctStep, mget_mset, hck]
  refine ⟨r1, r2 rest, fun hs => ?_⟩
  have := hs (some old) _ _ c' r1 h6 h7 (fun x => { x with rest := rest }) (fun _ => rfl) old rm _ (r2 rest)
  dsimp only at this
  rw [this, h6] at h3
  cases h3
  omega

example : exBcrypt.compare (4 :: b!"secret") b!"secret" = true ∧ exBcrypt.cost (4 :: b!"secret") = some 4 ∧
    exBcrypt.gen 0 b!"secret" = some (10 :: b!"secret") ∧ exBcrypt.cost (10 :: b!"secret") = some 10 := by decide

/-! ## Asking a server -/

private theorem take_until {u p : Str} (h : 58 ∉ u) :
    (u ++ 58 :: p).takeWhile (fun c => decide (c ≠ 58)) = u ∧
    ((u ++ 58 :: p).dropWhile (fun c => decide (c ≠ 58))).drop 1 = p := by
  induction u with
  | nil => simp
  | cons c u ih =>
    have hc : c ≠ 58 := fun e => h (by rw [e]; simp)
    have ih := ih (fun hm => h (List.mem_cons_of_mem _ hm))
    simp only [List.cons_append, List.takeWhile_cons, List.dropWhile_cons, hc, ne_eq, not_false_eq_true, decide_true, if_true]
    exact ⟨by rw [ih.1], ih.2⟩

private theorem basic_decode {u p : Str} (hb : ∀ b ∈ u ++ p, b < 256) (h : 58 ∉ u) :
    basicCreds (basicAuth u p) = some (u, p) := by
  unfold basicCreds basicAuth
  rw [if_pos (by rfl)]
  have : (b!"Basic " ++ Base64.encode .std (u ++ b!":" ++ p)).drop 6 = Base64.encode .std (u ++ b!":" ++ p) := rfl
  rw [this, decode_encode]
  · simp only [Option.bind_some, List.append_assoc, List.singleton_append]
    rw [if_pos (by simp)]
    obtain ⟨h1, h2⟩ := take_until (p := p) h
    rw [h1, h2]
  · intro b hm
    have hm : b ∈ u ∨ b = 58 ∨ b ∈ p := by simpa using hm
    rcases hm with hm | rfl | hm
    · exact hb b (List.mem_append.mpr (.inl hm))
    · decide
    · exact hb b (List.mem_append.mpr (.inr hm))

/-- With the HTTP authenticator, a user name without colon and a password are accepted if and only if the server says
they are valid. Missing: user names with a colon, see `C79_http_violated`. -/
theorem C79_http_partial (ask : AuthReq → Option Nat) (valid : Str → Str → Bool) (url u p : Str) (hc : Checks ask valid)
    (hb : ∀ b ∈ u ++ p, b < 256) (hu : 58 ∉ u) : httpAuth ask url u p = .ok ↔ valid u p = true := by
  have h1 : httpAuth ask url u p = .ok ↔ ask (httpAuthReq url u p) = some 200 := by
    unfold httpAuth
    split
    next h => simp [h]
    next s h =>
      rw [h]
      split
      next h3 => subst h3; simp
      · split
        next h4 => simpa using h4
        next h4 => simpa using h4
  rw [h1, hc]
  constructor
  · rintro ⟨h, u', p', e1, e2, e3⟩
    cases e1
    rw [basic_decode hb hu] at e2
    cases e2
    exact e3
  · intro h
    exact ⟨_, u, p, rfl, basic_decode hb hu, h⟩

/-- A server that knows two users. -/
private def exAsk (valid : Str → Str → Bool) (req : AuthReq) : Option Nat :=
  match req.authorization.bind basicCreds with
  | some (u, p) => if valid u p then some 200 else some 403
  | none => some 401

private theorem exAsk_checks (valid : Str → Str → Bool) : Checks (exAsk valid) valid := by
  intro req
  unfold exAsk
  split
  next u p h =>
    obtain ⟨x, hx, hx2⟩ := Option.bind_eq_some_iff.mp h
    constructor
    · intro hv
      refine ⟨x, u, p, hx, hx2, ?_⟩
      cases hvv : valid u p
      · rw [hvv] at hv; cases hv
      · rfl
    · rintro ⟨x', u', p', e1, e2, e3⟩
      rw [hx] at e1
      cases e1
      rw [hx2] at e2
      cases e2
      rw [e3]
      rfl
  next h =>
    constructor
    · intro hv; cases hv
    · rintro ⟨x', u', p', e1, e2, e3⟩
      rw [e1, Option.bind_some, e2] at h
      cases h

example : Checks (exAsk fun u p => u == b!"alice" && p == b!"pw") (fun u p => u == b!"alice" && p == b!"pw") ∧
    httpAuth (exAsk fun u p => u == b!"alice" && p == b!"pw") b!"http://localhost/auth" b!"alice" b!"pw" = .ok ∧
    httpAuth (exAsk fun u p => u == b!"alice" && p == b!"pw") b!"http://localhost/auth" b!"alice" b!"wp" = .invalid :=
  ⟨exAsk_checks _, by decide +kernel, by decide +kernel⟩

/-- auth/http.go:33: a user name with a colon is sent as it is. Whoever the server knows as `a` with a password
`b:p` is accepted as the user `a:b`, whom the server may not know at all. -/
theorem C79_http_violated (ask : AuthReq → Option Nat) (valid : Str → Str → Bool) (url a b p : Str) (hc : Checks ask valid)
    (hb : ∀ x ∈ a ++ (b ++ b!":" ++ p), x < 256) (ha : 58 ∉ a) (hv : valid a (b ++ b!":" ++ p) = true)
    (hn : valid (a ++ b!":" ++ b) p = false) :
    httpAuth ask url (a ++ b!":" ++ b) p = .ok ∧ ¬ HttpFaithful := by
  have h1 : httpAuthReq url (a ++ b!":" ++ b) p = httpAuthReq url a (b ++ b!":" ++ p) := by
    simp [httpAuthReq, basicAuth]
  have h2 : httpAuth ask url (a ++ b!":" ++ b) p = .ok := by
    have := (C79_http_partial ask valid url a _ hc hb ha).mpr hv
    unfold httpAuth at this ⊢
    rw [h1]
    exact this
  refine ⟨h2, fun hf => ?_⟩
  have := (hf ask valid url _ _ hc).mp h2
  rw [hn] at this
  cases this

example : Checks (exAsk fun u p => u == b!"mallory" && p == b!"x:pw") (fun u p => u == b!"mallory" && p == b!"x:pw") ∧
    httpAuth (exAsk fun u p => u == b!"mallory" && p == b!"x:pw") b!"http://localhost/auth" b!"mallory:x" b!"pw" = .ok :=
  ⟨exAsk_checks _, by decide +kernel⟩

private theorem escape_decode : ∀ (s : Str), (∀ b ∈ s, b < 256) →
    formValue (queryEscape s) = some s ∧ 38 ∉ queryEscape s ∧ 61 ∉ queryEscape s ∧ 58 ∉ queryEscape s ∧
      ∀ b ∈ queryEscape s, b < 256
  | [], _ => by simp [queryEscape, formValue]
  | c :: s, hb => by
    obtain ⟨h1, h2, h3, h4, h5⟩ := escape_decode s (fun b h => hb b (List.mem_cons_of_mem _ h))
    have hc := hb c List.mem_cons_self
    have hx : ∀ n, n < 16 → hexValue (formHex n) = some n ∧ formHex n ≠ 38 ∧ formHex n ≠ 61 ∧ formHex n ≠ 58 ∧ formHex n < 256 := by
      intro n hn
      unfold formHex hexValue
      split
      · rw [if_pos (by omega)]
        exact ⟨by congr 1; omega, by omega, by omega, by omega, by omega⟩
      · rw [if_neg (by omega), if_pos (by omega)]
        exact ⟨by congr 1; omega, by omega, by omega, by omega, by omega⟩
    have plain : ∀ d, d ≠ 37 → formValue (d :: queryEscape s) = some ((if d = 43 then 32 else d) :: s) := by
      intro d hd
      have : formValue (d :: queryEscape s) = if d = 37 then none else (formValue (queryEscape s)).map ((if d = 43 then 32 else d) :: ·) := by
        rw [formValue.eq_def]
        split
        next he => cases he
        next he => exact absurd (List.cons.inj he).1 hd
        next he => obtain ⟨rfl, rfl⟩ := List.cons.inj he; rfl
      rw [this, if_neg hd, h1]
      rfl
    unfold queryEscape
    split
    next hsp =>
      subst hsp
      refine ⟨?_, by simp [h2], by simp [h3], by simp [h4], by simpa using h5⟩
      rw [List.singleton_append, plain 43 (by decide)]
      rfl
    next hsp =>
      split
      next hk =>
        unfold queryKeeps at hk
        have hk := of_decide_eq_true hk
        refine ⟨?_, ?_, ?_, ?_, ?_⟩
        · rw [List.singleton_append, plain c (by omega), if_neg (by omega)]
        · simp only [List.singleton_append, List.mem_cons, not_or]; exact ⟨by omega, h2⟩
        · simp only [List.singleton_append, List.mem_cons, not_or]; exact ⟨by omega, h3⟩
        · simp only [List.singleton_append, List.mem_cons, not_or]; exact ⟨by omega, h4⟩
        · simp only [List.singleton_append, List.mem_cons, forall_eq_or_imp]; exact ⟨hc, h5⟩
      next hk =>
        obtain ⟨a1, a2, a3, a4, a5⟩ := hx (c / 16) (by omega)
        obtain ⟨b1, b2, b3, b4, b5⟩ := hx (c % 16) (by omega)
        refine ⟨?_, ?_, ?_, ?_, ?_⟩
        · rw [List.cons_append, List.cons_append, List.singleton_append, formValue, a1, b1, h1]
          simp only [Option.some.injEq, List.cons.injEq, and_true]
          omega
        · simp only [List.cons_append, List.nil_append, List.mem_cons, not_or]; exact ⟨by decide, a2.symm, b2.symm, h2⟩
        · simp only [List.cons_append, List.nil_append, List.mem_cons, not_or]; exact ⟨by decide, a3.symm, b3.symm, h3⟩
        · simp only [List.cons_append, List.nil_append, List.mem_cons, not_or]; exact ⟨by decide, a4.symm, b4.symm, h4⟩
        · simp only [List.cons_append, List.nil_append, List.mem_cons, forall_eq_or_imp]; exact ⟨by decide, a5, b5, h5⟩

/-- With the OAuth 2.0 authenticator, a token logs somebody in if and only if the server, asked about exactly this
token, and nothing else, says that it is active and whose it is; they are logged in as that user. The server is shown
the credentials of the bouncer if there are some. -/
theorem C79_oauth (conf : OauthConf) (ask : AuthReq → Option (Nat × Option Introspection)) (token : Str)
    (hb : ∀ b ∈ token ++ conf.clientID ++ conf.clientSecret, b < 256) :
    ∃ req, req.method = b!"POST" ∧ req.url = conf.introspectionURL ∧ FormHas req.body b!"token" token ∧
      (conf.clientID = [] → req.authorization = none) ∧
      (conf.clientID ≠ [] → ∃ h u p, req.authorization = some h ∧ basicCreds h = some (u, p) ∧
        formValue u = some conf.clientID ∧ formValue p = some conf.clientSecret) ∧
      ∀ u, oauthBearer conf ask token = .user u ↔ u ≠ [] ∧ ask req = some (200, some ⟨true, u⟩) := by
  have hb1 : ∀ b ∈ token, b < 256 := fun b h => hb b (by simp [h])
  have hb2 : ∀ b ∈ conf.clientID, b < 256 := fun b h => hb b (by simp [h])
  have hb3 : ∀ b ∈ conf.clientSecret, b < 256 := fun b h => hb b (by simp [h])
  obtain ⟨t1, t2, t3, -⟩ := escape_decode token hb1
  obtain ⟨c1, -, -, c4, c5⟩ := escape_decode conf.clientID hb2
  obtain ⟨s1, -, -, -, s5⟩ := escape_decode conf.clientSecret hb3
  refine ⟨introspectReq conf token, rfl, rfl, ⟨queryEscape token, rfl, t2, t3, t1⟩, ?_, ?_, ?_⟩
  · intro h; simp [introspectReq, h]
  · intro h
    refine ⟨basicAuth (queryEscape conf.clientID) (queryEscape conf.clientSecret), queryEscape conf.clientID,
      queryEscape conf.clientSecret, by simp only [introspectReq, if_pos h], ?_, c1, s1⟩
    apply basic_decode _ c4
    intro b hm
    rcases List.mem_append.mp hm with h | h
    · exact c5 b h
    · exact s5 b h
  · intro u
    unfold oauthBearer
    split
    next h => simp [h]
    next status data h =>
      rw [h]
      split
      next hs => simp [hs]
      next hs =>
        have hs : status = 200 := by omega
        subst hs
        split
        · simp
        next d =>
          obtain ⟨active, name⟩ := d
          cases active with
          | false => simp
          | true =>
            simp only [Bool.not_true, Bool.false_eq_true, if_false]
            split
            next hn => subst hn; simp
            next hn =>
              simp only [TokenRes.user.injEq, Option.some.injEq, Prod.mk.injEq, Introspection.mk.injEq, true_and]
              exact ⟨fun h => ⟨by rw [← h]; exact hn, h⟩, fun h => h.2⟩

example : oauthBearer ⟨b!"https://sso/introspect", b!"so:ju", b!"s&cret"⟩ (fun req =>
    if req.body = b!"token=a%26b+c" then some (200, some ⟨true, b!"alice"⟩) else some (200, some ⟨false, []⟩)) b!"a&b c" =
    .user b!"alice" := by decide +kernel

/-- A server that says which ways of authentication it supports is only used with the one that will be. -/
theorem C79_oauth_method (conf : OauthConf) (server : OauthServer) (token : Str) (h : oauthNew conf.clientID server = true) :
    server.issuer ≠ [] ∧ server.introspection ≠ [] ∧ ∀ ms, server.methods = some ms →
      (introspectReq conf token).authorization = none ∧ b!"none" ∈ ms ∨
      (∃ v, (introspectReq conf token).authorization = some v) ∧ b!"client_secret_basic" ∈ ms := by
  unfold oauthNew at h
  split at h
  · cases h
  next h1 =>
  split at h
  · cases h
  next h2 =>
  refine ⟨h1, h2, fun ms hm => ?_⟩
  rw [hm] at h
  dsimp only at h
  split at h
  · cases h
  next h3 =>
  split at h
  · cases h
  next h4 =>
  by_cases hc : conf.clientID = []
  · exact Or.inl ⟨by simp [introspectReq, hc], Classical.byContradiction fun hn => h3 ⟨hc, hn⟩⟩
  · refine Or.inr ⟨⟨_, by simp only [introspectReq, ne_eq, hc, not_false_eq_true, if_true]; rfl⟩,
      Classical.byContradiction fun hn => h4 ⟨hc, hn⟩⟩

example : oauthNew b!"soju" ⟨b!"https://sso.example", b!"https://sso.example/check", some [b!"client_secret_basic"]⟩ = true ∧
    oauthNew [] ⟨b!"https://sso.example", b!"https://sso.example/check", some [b!"client_secret_basic"]⟩ = false ∧
    oauthNew [] ⟨b!"https://sso.example", b!"https://sso.example/check", none⟩ = true := by decide +kernel

/-- With PAM, a user is accepted if and only if PAM authenticates them with the password as the answer to hidden prompts,
the account may be used and is the one that was asked for. -/
theorem C79_pam (start : Str → Option PamSession) (u p : Str) :
    pamAuth start u p = .ok ↔ ∃ s answer, start u = some s ∧ s.authenticate answer = true ∧ s.acctMgmt = true ∧
      s.user = some u ∧ s.endOk = true ∧ answer .echoOff = some p ∧ answer .echoOn = some [] ∧ answer .errorMsg = some [] ∧
      answer .textInfo = some [] ∧ answer .other = none := by
  unfold pamAuth
  split
  next h => simp [h]
  next s h =>
    rw [h]
    have hx : (∃ s' answer, some s = some s' ∧ s'.authenticate answer = true ∧ s'.acctMgmt = true ∧
      s'.user = some u ∧ s'.endOk = true ∧ answer .echoOff = some p ∧ answer .echoOn = some [] ∧ answer .errorMsg = some [] ∧
      answer .textInfo = some [] ∧ answer .other = none) ↔
      s.authenticate (pamAnswer p) = true ∧ s.acctMgmt = true ∧ s.user = some u ∧ s.endOk = true := by
      constructor
      · rintro ⟨s', ans, he, h1, h2, h3, h4, a1, a2, a3, a4, a5⟩
        cases he
        have : ans = pamAnswer p := by funext x; cases x <;> assumption
        subst this
        exact ⟨h1, h2, h3, h4⟩
      · rintro ⟨h1, h2, h3, h4⟩
        exact ⟨s, pamAnswer p, rfl, h1, h2, h3, h4, rfl, rfl, rfl, rfl, rfl⟩
    rw [hx]
    cases h1 : s.authenticate (pamAnswer p)
    · simp
    · cases h2 : s.acctMgmt
      · simp
      · by_cases h3 : s.user = some u
        · cases h4 : s.endOk <;> simp [h3]
        · simp [h3]

example : pamAuth (fun u => some ⟨fun ans => decide (ans .echoOff = some b!"pw"), true, some u, true⟩) b!"alice" b!"pw" = .ok ∧
    pamAuth (fun _ => some ⟨fun ans => decide (ans .echoOff = some b!"pw"), true, some b!"root", true⟩) b!"alice" b!"pw" = .failed := by
  decide +kernel

/-! ## With the registration of clients -/

/-- With the passwords of the database, a client that registers has sent the password of the user it is, or that of an
administrator, whatever else it has sent. -/
theorem C79_registered (lib : BcryptLib) (sl : SaslLib) (sasl : Str) (history : Bool) (evs : List (AuthEnv × RegMsg))
    (hdrv : ∀ ev ∈ evs, ev.1.oauth = none ∧ ∃ (db : Str → Option AcctRow) (salt : Nat) (ok : Bool),
      ev.1.plain = some (fun u p => decide ((internalAuth lib salt ok (db u) p).1 = .ok)) ∧
      ev.1.users = fun u => (db u).map fun r => ⟨r.admin, r.enabled⟩)
    (u client network : Str) (id : Int) (imp : Bool)
    (h : regRun sl sasl history evs = .registered u client network id imp) :
    ∃ name pw hash, (SentPass (evs.map (·.2)) pw ∨ ∃ identity login, loginUser login = name ∧
        SentResponse sl (evs.map (·.2)) (identity ++ 0 :: login ++ 0 :: pw)) ∧
      hash ≠ [] ∧ lib.compare hash pw = true ∧
      ∃ (ev : AuthEnv × RegMsg) (db : Str → Option AcctRow) (row : AcctRow), ev ∈ evs ∧
        (ev.1.users = fun u => (db u).map fun r => ⟨r.admin, r.enabled⟩) ∧ db name = some row ∧ row.password = hash ∧
        (name = u ∨ row.admin = true) := by
  obtain ⟨who, pre, ev, post, he, ha⟩ := C27_authenticated sl sasl history evs u client network id imp h
  have hmem : ev ∈ evs := by rw [he]; simp
  obtain ⟨ho, db, salt, ok, hp, hus⟩ := hdrv ev hmem
  have key : ∀ name pw, decide ((internalAuth lib salt ok (db name) pw).1 = AuthRes.ok) = true →
      ∃ row, db name = some row ∧ row.password ≠ [] ∧ lib.compare row.password pw = true := by
    intro name pw hok
    have hok := of_decide_eq_true hok
    unfold internalAuth at hok
    split at hok
    · cases hok
    next row hrow =>
      refine ⟨row, hrow, ?_⟩
      split at hok
      · cases hok
      next hk => exact ⟨(check_some hk).1, (check_some hk).2.1⟩
      next hk => exact ⟨(check_some hk).1, (check_some hk).2.1⟩
  have sub : ∀ m ∈ (pre ++ [ev]).map (·.2), m ∈ evs.map (·.2) := by
    intro m hm
    rw [he]
    simp only [List.map_append, List.map_cons, List.mem_append, List.mem_cons] at hm ⊢
    rcases hm with h | h | h
    · exact .inl h
    · exact .inr (.inl h)
    · cases h
  have resp : ∀ r, SentResponse sl ((pre ++ [ev]).map (·.2)) r → SentResponse sl (evs.map (·.2)) r := by
    intro r hr
    obtain ⟨chunks, h1, h2⟩ := hr
    refine ⟨chunks, h1, fun c hc => ?_⟩
    obtain ⟨p, rest, h3, h4⟩ := h2 c hc
    exact ⟨p, rest, sub _ h3, h4⟩
  cases ha with
  | pass auth login pw hp' hu hw hl hacc =>
    rw [hp] at hp'
    cases hp'
    obtain ⟨row, h1, h2, h3⟩ := key _ _ hacc
    exact ⟨u, pw, row.password, .inl (hw.imp fun _ h => sub _ h), h2, h3, ev, db, row, hmem, hus, h1, rfl, .inl rfl⟩
  | plain auth identity login pw hp' hr hi hl hacc =>
    rw [hp] at hp'
    cases hp'
    obtain ⟨row, h1, h2, h3⟩ := key _ _ hacc
    exact ⟨u, pw, row.password, .inr ⟨identity, login, hl, resp _ hr⟩, h2, h3, ev, db, row, hmem, hus, h1, rfl, .inl rfl⟩
  | impersonate auth identity login pw admin hp' hr hl hacc hu hadm hx =>
    rw [hp] at hp'
    cases hp'
    obtain ⟨row, h1, h2, h3⟩ := key _ _ hacc
    refine ⟨loginUser login, pw, row.password, .inr ⟨identity, login, rfl, resp _ hr⟩, h2, h3, ev, db, row, hmem, hus, h1, rfl, .inr ?_⟩
    rw [hus] at hu
    dsimp only at hu
    rw [h1] at hu
    cases hu
    exact hadm
  | oauth auth r user token hp' => rw [ho] at hp'; cases hp'

/-- A database with one account. -/
private def exAcctDb (u : Str) : Option AcctRow := if u = b!"alice" then some ⟨1, 10 :: b!"pw", false, true, []⟩ else none

/-- The authenticator for it. -/
private def exAcctEnv : AuthEnv :=
  ⟨some (fun u p => decide ((internalAuth exBcrypt 0 true (exAcctDb u) p).1 = .ok)), none,
   fun u => (exAcctDb u).map fun r => ⟨r.admin, r.enabled⟩⟩

example : (∀ ev ∈ [(exAcctEnv, (⟨b!"PASS", [b!"pw"]⟩ : RegMsg)), (exAcctEnv, ⟨b!"NICK", [b!"al"]⟩),
      (exAcctEnv, ⟨b!"USER", [b!"alice/libera", b!"0", b!"*", b!"Alice"]⟩)], ev.1 = exAcctEnv) ∧
    regRun ⟨some, fun _ => none⟩ b!"PLAIN" true [(exAcctEnv, ⟨b!"PASS", [b!"pw"]⟩), (exAcctEnv, ⟨b!"NICK", [b!"al"]⟩),
      (exAcctEnv, ⟨b!"USER", [b!"alice/libera", b!"0", b!"*", b!"Alice"]⟩)] =
      .registered b!"alice" [] b!"libera" 0 false := by
  refine ⟨by simp, by decide +kernel⟩

end Verif.Props
