import Verif.Model.Inactive
import Verif.Proof.GoMap
import Verif.Proof.Util

/-! # Disabling inactive accounts (C60) -/

namespace Verif.Props
open Verif.Model Verif.Proof

/-- The times at which clients of the user (not an administrator acting for them) logged in, sent something or
logged out. -/
def seenAt (name : Str) : List (Nat × IaOp) → List Nat
  | [] => []
  | (t, .login n _ false true) :: h => if n = name then t :: seenAt name h else seenAt name h
  | (t, .message n _ false) :: h => if n = name then t :: seenAt name h else seenAt name h
  | (t, .logout n _ false) :: h => if n = name then t :: seenAt name h else seenAt name h
  | _ :: h => seenAt name h

/-- The times at which the account was created. -/
def createdAt (name : Str) : List (Nat × IaOp) → List Nat
  | [] => []
  | (t, .create n) :: h => if n = name then t :: createdAt name h else createdAt name h
  | _ :: h => createdAt name h

private theorem run_append (onAuth : Bool) (h1 h2 : List (Nat × IaOp)) : ∀ st,
    iaRun onAuth st (h1 ++ h2) = (iaRun onAuth st h1).bind (fun st' => iaRun onAuth st' h2) := by
  induction h1 with
  | nil => intro st; rfl
  | cons p h1 ih =>
    intro st
    obtain ⟨t, op⟩ := p
    simp only [List.cons_append, iaRun]
    cases iaStep onAuth st t op with
    | none => rfl
    | some st' => exact ih st'

private theorem seen_append (name : Str) (h1 h2 : List (Nat × IaOp)) :
    seenAt name (h1 ++ h2) = seenAt name h1 ++ seenAt name h2 := by
  induction h1 with
  | nil => rfl
  | cons p h1 ih =>
    obtain ⟨t, op⟩ := p
    rw [List.cons_append]
    cases op with
    | login n i imp acc => cases imp <;> cases acc <;> simp only [seenAt] <;> (try split) <;> simp [ih]
    | message n i imp => cases imp <;> simp only [seenAt] <;> (try split) <;> simp [ih]
    | logout n i imp => cases imp <;> simp only [seenAt] <;> (try split) <;> simp [ih]
    | _ => simp only [seenAt]; exact ih

private theorem created_append (name : Str) (h1 h2 : List (Nat × IaOp)) :
    createdAt name (h1 ++ h2) = createdAt name h1 ++ createdAt name h2 := by
  induction h1 with
  | nil => rfl
  | cons p h1 ih =>
    obtain ⟨t, op⟩ := p
    rw [List.cons_append]
    cases op with
    | create n => simp only [createdAt]; split <;> simp [ih]
    | _ => simp only [createdAt]; exact ih

/-- What is known about an account, as long as the bouncer is not restarted. -/
private def IaGood (now : Nat) (name : Str) (u : IaUser) (h : List (Nat × IaOp)) : Prop :=
  (∀ x ∈ seenAt name h, x ≤ now ∧ ((∃ i, (i, false) ∈ u.conns) ∨ ∃ y, u.stored = some y ∧ x ≤ y)) ∧
  (∀ x ∈ createdAt name h, x = u.created ∧ x ≤ now) ∧
  (∀ y, u.stored = some y → u.created ≤ y ∧ y ≤ now) ∧ u.created ≤ now

private def IaInv (st : IaState) (h : List (Nat × IaOp)) : Prop :=
  (∀ name u, GoMap.get st.users name = some u → IaGood st.now name u h) ∧
  (∀ name, GoMap.get st.users name = none → seenAt name h = [] ∧ createdAt name h = []) ∧
  (st.users.map (·.1)).Nodup

private theorem good_later {now t name u h} (hg : IaGood now name u h) (ht : now ≤ t) : IaGood t name u h :=
  ⟨fun x hx => ⟨Nat.le_trans (hg.1 x hx).1 ht, (hg.1 x hx).2⟩,
   fun x hx => ⟨(hg.2.1 x hx).1, Nat.le_trans (hg.2.1 x hx).2 ht⟩,
   fun y hy => ⟨(hg.2.2.1 y hy).1, Nat.le_trans (hg.2.2.1 y hy).2 ht⟩, Nat.le_trans hg.2.2.2 ht⟩

/-- An event that is not activity of `name` and keeps what matters of its record. -/
private theorem good_same {now t name u u' h op} (hg : IaGood now name u h) (ht : now ≤ t)
    (hs : seenAt name [(t, op)] = []) (hc : createdAt name [(t, op)] = [])
    (h1 : ∀ i, (i, false) ∈ u.conns → (i, false) ∈ u'.conns)
    (h2 : u'.stored = u.stored ∨ u'.stored = some t) (h3 : u'.created = u.created) :
    IaGood t name u' (h ++ [(t, op)]) := by
  have hg' := good_later hg ht
  rw [IaGood, seen_append, created_append, hs, hc, List.append_nil, List.append_nil, h3]
  refine ⟨?_, hg'.2.1, ?_, hg'.2.2.2⟩
  · intro x hx
    obtain ⟨a, b⟩ := hg'.1 x hx
    refine ⟨a, ?_⟩
    rcases b with ⟨i, hi⟩ | ⟨y, hy, hxy⟩
    · exact .inl ⟨i, h1 i hi⟩
    · rcases h2 with h2 | h2
      · exact .inr ⟨y, by rw [h2]; exact hy, hxy⟩
      · exact .inr ⟨t, h2, a⟩
  · intro y hy
    rcases h2 with h2 | h2
    · rw [h2] at hy; exact hg'.2.2.1 y hy
    · rw [h2] at hy
      cases hy
      exact ⟨hg'.2.2.2, Nat.le_refl _⟩

/-- The history goes on and the records stay. -/
private theorem inv_idle {st h t op pend} (hi : IaInv st h) (ht : ¬ t < st.now)
    (hs : ∀ name, seenAt name [(t, op)] = []) (hc : ∀ name, createdAt name [(t, op)] = []) :
    IaInv { st with now := t, pending := pend } (h ++ [(t, op)]) := by
  refine ⟨fun name u hu => ?_, fun name hu => ?_, hi.2.2⟩
  · exact good_same (hi.1 name u hu) (Nat.le_of_not_lt ht) (hs name) (hc name) (fun _ x => x) (.inl rfl) rfl
  · rw [seen_append, created_append, hs name, hc name, List.append_nil, List.append_nil]
    exact hi.2.1 name hu

/-- One record changes. -/
private theorem inv_set {st h t op name u u' pend} (hi : IaInv st h) (ht : ¬ t < st.now)
    (_hu : GoMap.get st.users name = some u)
    (hs : ∀ n, n ≠ name → seenAt n [(t, op)] = []) (hc : ∀ n, createdAt n [(t, op)] = [])
    (hg : IaGood t name u' (h ++ [(t, op)])) :
    IaInv { now := t, users := GoMap.set st.users name u', pending := pend } (h ++ [(t, op)]) := by
  refine ⟨fun n v hv => ?_, fun n hv => ?_, mset_nodup hi.2.2 name u'⟩
  · have hv : GoMap.get (GoMap.set st.users name u') n = some v := hv
    rw [mget_mset] at hv
    by_cases e : name = n
    · subst e
      rw [if_pos rfl] at hv
      cases hv
      exact hg
    · rw [if_neg e] at hv
      exact good_same (hi.1 n v hv) (Nat.le_of_not_lt ht) (hs n (fun x => e x.symm)) (hc n) (fun _ x => x) (.inl rfl) rfl
  · have hv : GoMap.get (GoMap.set st.users name u') n = none := hv
    rw [mget_mset] at hv
    by_cases e : name = n
    · rw [if_pos e] at hv; cases hv
    · rw [if_neg e] at hv
      rw [seen_append, created_append, hs n (fun x => e x.symm), hc n, List.append_nil, List.append_nil]
      exact hi.2.1 n hv

private theorem inv_step {onAuth st st' h t op} (hi : IaInv st h) (hr : op ≠ .restart)
    (hs : iaStep onAuth st t op = some st') : IaInv st' (h ++ [(t, op)]) ∧ st'.now = t := by
  unfold iaStep at hs
  by_cases ht : t < st.now
  · rw [if_pos ht] at hs; cases hs
  rw [if_neg ht] at hs
  have hle := Nat.le_of_not_lt ht
  cases op with
  | create name =>
    simp only at hs
    cases hu : GoMap.get st.users name with
    | some u => rw [hu] at hs; cases hs
    | none =>
      rw [hu] at hs
      cases hs
      refine ⟨⟨fun n v hv => ?_, fun n hv => ?_, mset_nodup hi.2.2 _ _⟩, rfl⟩
      · have hv : GoMap.get (GoMap.set st.users name _) n = some v := hv
        rw [mget_mset] at hv
        by_cases e : name = n
        · subst e
          rw [if_pos rfl] at hv
          cases hv
          obtain ⟨e1, e2⟩ := hi.2.1 name hu
          rw [IaGood, seen_append, created_append, e1, e2]
          simp [seenAt, createdAt]
        · rw [if_neg e] at hv
          exact good_same (hi.1 n v hv) hle rfl (by simp [createdAt, e]) (fun _ x => x) (.inl rfl) rfl
      · have hv : GoMap.get (GoMap.set st.users name _) n = none := hv
        rw [mget_mset] at hv
        by_cases e : name = n
        · rw [if_pos e] at hv; cases hv
        · rw [if_neg e] at hv
          rw [seen_append, created_append, (hi.2.1 n hv).1, (hi.2.1 n hv).2]
          simp [seenAt, createdAt, e]
  | login name id imp accepted =>
    simp only at hs
    cases hu : GoMap.get st.users name with
    | none => rw [hu] at hs; cases hs
    | some u =>
      rw [hu] at hs
      simp only at hs
      generalize hu1 : (if (!u.enabled && onAuth) = true then { u with enabled := true } else u) = u1 at hs
      have f1 : u1.conns = u.conns ∧ u1.stored = u.stored ∧ u1.created = u.created := by
        rw [← hu1]; split <;> exact ⟨rfl, rfl, rfl⟩
      by_cases ha : accepted ≠ u1.enabled
      · rw [if_pos ha] at hs; cases hs
      rw [if_neg ha] at hs
      have ha : accepted = u1.enabled := Classical.not_not.1 ha
      by_cases he : (!u1.enabled) = true
      · rw [if_pos he] at hs
        cases hs
        have hacc : accepted = false := by rw [ha]; simpa using he
        subst hacc
        have hse : ∀ n, seenAt n [(t, IaOp.login name id imp false)] = [] := by intro n; cases imp <;> rfl
        refine ⟨inv_set hi ht hu (fun n _ => hse n) (fun n => rfl) ?_, rfl⟩
        exact good_same (hi.1 name u hu) hle (hse name) rfl (fun i x => by rw [f1.1]; exact x) (.inl f1.2.1) f1.2.2
      · rw [if_neg he] at hs
        cases hs
        have hacc : accepted = true := by rw [ha]; simpa using he
        subst hacc
        have hse : ∀ n, n ≠ name → seenAt n [(t, IaOp.login name id imp true)] = [] := by
          intro n hn
          cases imp
          · simp only [seenAt]; rw [if_neg (fun e => hn e.symm)]
          · rfl
        refine ⟨inv_set hi ht hu hse (fun n => rfl) ?_, rfl⟩
        cases imp with
        | true =>
          refine good_same (hi.1 name u hu) hle rfl rfl ?_ (.inl f1.2.1) f1.2.2
          intro i x
          show (i, false) ∈ u1.conns ++ [(id, true)]
          rw [f1.1]
          exact List.mem_append_left _ x
        | false =>
          have hg := good_later (hi.1 name u hu) hle
          rw [IaGood, seen_append, created_append]
          simp only [seenAt, createdAt, if_true, List.append_nil, iaBump, Bool.false_eq_true, if_false]
          rw [f1.2.2]
          refine ⟨?_, hg.2.1, ?_, hg.2.2.2⟩
          · intro x hx
            have hxt : x ≤ t := by
              rcases List.mem_append.1 hx with hx | hx
              · exact (hg.1 x hx).1
              · rw [List.mem_singleton] at hx; exact Nat.le_of_eq hx
            exact ⟨hxt, .inl ⟨id, List.mem_append_right _ (List.mem_singleton.2 rfl)⟩⟩
          · intro y hy
            cases hy
            exact ⟨hg.2.2.2, Nat.le_refl _⟩
  | message name id imp =>
    simp only at hs
    cases hu : GoMap.get st.users name with
    | none => rw [hu] at hs; cases hs
    | some u =>
      rw [hu] at hs
      simp only at hs
      by_cases hm : (id, imp) ∈ u.conns
      · rw [if_pos hm] at hs
        cases hs
        refine ⟨⟨fun n v hv => ?_, fun n hv => ?_, hi.2.2⟩, rfl⟩
        · by_cases e : n = name
          · subst e
            have hv : GoMap.get st.users n = some v := hv
            rw [hu] at hv
            cases hv
            have hg := good_later (hi.1 n u hu) hle
            rw [IaGood, seen_append, created_append]
            cases imp with
            | true =>
              have : seenAt n [(t, IaOp.message n id true)] = [] := rfl
              rw [this, List.append_nil]
              simp only [createdAt, List.append_nil]
              exact hg
            | false =>
              simp only [seenAt, createdAt, if_true, List.append_nil]
              refine ⟨?_, hg.2.1, hg.2.2.1, hg.2.2.2⟩
              intro x hx
              rcases List.mem_append.1 hx with hx | hx
              · exact hg.1 x hx
              · rw [List.mem_singleton] at hx
                exact ⟨Nat.le_of_eq hx, .inl ⟨id, hm⟩⟩
          · refine good_same (hi.1 n v hv) hle ?_ rfl (fun _ x => x) (.inl rfl) rfl
            cases imp
            · simp only [seenAt]; rw [if_neg (fun x => e x.symm)]
            · rfl
        · have hne : n ≠ name := by
            intro e; subst e
            have hv : GoMap.get st.users n = none := hv
            rw [hu] at hv; cases hv
          have : seenAt n [(t, IaOp.message name id imp)] = [] := by
            cases imp
            · simp only [seenAt]; rw [if_neg (fun x => hne x.symm)]
            · rfl
          rw [seen_append, created_append, this]
          simp only [createdAt, List.append_nil]
          exact hi.2.1 n hv
      · rw [if_neg hm] at hs; cases hs
  | logout name id imp =>
    simp only at hs
    cases hu : GoMap.get st.users name with
    | none => rw [hu] at hs; cases hs
    | some u =>
      rw [hu] at hs
      simp only at hs
      by_cases hm : (id, imp) ∈ u.conns
      · rw [if_pos hm] at hs
        cases hs
        have hse : ∀ n, n ≠ name → seenAt n [(t, IaOp.logout name id imp)] = [] := by
          intro n hn
          cases imp
          · simp only [seenAt]; rw [if_neg (fun e => hn e.symm)]
          · rfl
        refine ⟨inv_set hi ht hu hse (fun n => rfl) ?_, rfl⟩
        cases imp with
        | true =>
          refine good_same (hi.1 name u hu) hle rfl rfl ?_ (.inl rfl) rfl
          intro i x
          exact (List.mem_erase_of_ne (by intro e; cases e)).2 x
        | false =>
          have hg := good_later (hi.1 name u hu) hle
          rw [IaGood, seen_append, created_append]
          simp only [seenAt, createdAt, if_true, List.append_nil, iaBump, Bool.false_eq_true, if_false]
          refine ⟨?_, hg.2.1, ?_, hg.2.2.2⟩
          · intro x hx
            have hxt : x ≤ t := by
              rcases List.mem_append.1 hx with hx | hx
              · exact (hg.1 x hx).1
              · rw [List.mem_singleton] at hx; exact Nat.le_of_eq hx
            exact ⟨hxt, .inr ⟨t, rfl, hxt⟩⟩
          · intro y hy
            cases hy
            exact ⟨hg.2.2.2, Nat.le_refl _⟩
      · rw [if_neg hm] at hs; cases hs
  | refusedLeft name id imp =>
    simp only at hs
    cases hu : GoMap.get st.users name with
    | none => rw [hu] at hs; cases hs
    | some u =>
      rw [hu] at hs
      simp only at hs
      by_cases hm : (id, imp) ∈ u.refused
      · rw [if_pos hm] at hs
        cases hs
        refine ⟨inv_set hi ht hu (fun n _ => rfl) (fun n => rfl) ?_, rfl⟩
        refine good_same (hi.1 name u hu) hle rfl rfl ?_ ?_ ?_
        · intro i x; cases imp <;> exact x
        · cases imp
          · exact .inr rfl
          · exact .inl rfl
        · cases imp <;> rfl
      · rw [if_neg hm] at hs; cases hs
  | setEnabled name b =>
    simp only at hs
    cases hu : GoMap.get st.users name with
    | none => rw [hu] at hs; cases hs
    | some u =>
      rw [hu] at hs
      cases hs
      refine ⟨inv_set hi ht hu (fun n _ => rfl) (fun n => rfl) ?_, rfl⟩
      exact good_same (hi.1 name u hu) hle rfl rfl (fun _ x => x) (.inl rfl) rfl
  | scan delay =>
    simp only at hs
    split at hs
    · cases hs
    · cases hs
      exact ⟨inv_idle hi ht (fun _ => rfl) (fun _ => rfl), rfl⟩
  | deliver =>
    simp only at hs
    split at hs
    · cases hs
    · rename_i name rest hp
      cases hu : GoMap.get st.users name with
      | none => rw [hu] at hs; cases hs
      | some u =>
        rw [hu] at hs
        cases hs
        refine ⟨inv_set hi ht hu (fun n _ => rfl) (fun n => rfl) ?_, rfl⟩
        exact good_same (hi.1 name u hu) hle rfl rfl (fun _ x => x) (.inl rfl) rfl
  | giveUp =>
    cases hs
    have h2 := inv_idle (pend := []) (op := .giveUp) hi ht (fun _ => rfl) (fun _ => rfl)
    exact ⟨h2, rfl⟩
  | restart => exact absurd rfl hr

private theorem inv_run {onAuth} (ops : List (Nat × IaOp)) : ∀ {st st' h}, IaInv st h →
    (∀ p ∈ ops, p.2 ≠ .restart) → iaRun onAuth st ops = some st' → IaInv st' (h ++ ops) := by
  induction ops with
  | nil => intro st st' h hi _ hr; cases hr; rw [List.append_nil]; exact hi
  | cons p ops ih =>
    intro st st' h hi hn hr
    obtain ⟨t, op⟩ := p
    simp only [iaRun] at hr
    cases hs : iaStep onAuth st t op with
    | none => rw [hs] at hr; cases hr
    | some st1 =>
      rw [hs] at hr
      have h1 := (inv_step hi (hn _ (List.mem_cons_self ..)) hs).1
      have := ih h1 (fun p hp => hn p (List.mem_cons_of_mem _ hp)) hr
      rw [List.append_assoc] at this
      exact this

/-- An account that the scan has chosen, until the event is delivered: no client logs in. -/
private def IaChosen (st : IaState) (name : Str) : Prop :=
  ∃ u, GoMap.get st.users name = some u ∧ u.conns = []

private theorem chosen_step {onAuth st st' t op name} (hc : IaChosen st name) (hr : op ≠ .restart)
    (hl : ∀ id imp acc, op ≠ .login name id imp acc) (hs : iaStep onAuth st t op = some st') :
    IaChosen st' name ∧ seenAt name [(t, op)] = [] ∧ createdAt name [(t, op)] = [] := by
  obtain ⟨u, hu, hcn⟩ := hc
  unfold iaStep at hs
  by_cases ht : t < st.now
  · rw [if_pos ht] at hs; cases hs
  rw [if_neg ht] at hs
  have other : ∀ (st1 : IaState) (n : Str) (v w : IaUser), GoMap.get st.users n = some v →
      st1.users = GoMap.set st.users n w → (n = name → w.conns = []) → IaChosen st1 name := by
    intro st1 n v w _ hst hw
    unfold IaChosen
    rw [hst]
    by_cases e : n = name
    · exact ⟨w, by rw [mget_mset, if_pos e], hw e⟩
    · exact ⟨u, by rw [mget_mset, if_neg e]; exact hu, hcn⟩
  have hself : ∀ v, GoMap.get st.users name = some v → v.conns = [] := by
    intro v hv; rw [hu] at hv; cases hv; exact hcn
  cases op with
  | create n =>
    simp only at hs
    cases hv : GoMap.get st.users n with
    | some v => rw [hv] at hs; cases hs
    | none =>
      rw [hv] at hs
      cases hs
      have hne : n ≠ name := by intro e; rw [e, hu] at hv; cases hv
      refine ⟨⟨u, ?_, hcn⟩, rfl, by simp [createdAt, hne]⟩
      show GoMap.get (GoMap.set st.users n _) name = some u
      rw [mget_mset, if_neg hne]
      exact hu
  | login n id imp acc =>
    have hne : n ≠ name := by intro e; exact hl id imp acc (by rw [e])
    have hse : seenAt name [(t, IaOp.login n id imp acc)] = [] := by
      cases imp <;> cases acc <;> simp [seenAt, hne]
    simp only at hs
    cases hv : GoMap.get st.users n with
    | none => rw [hv] at hs; cases hs
    | some v =>
      rw [hv] at hs
      simp only at hs
      generalize (if (!v.enabled && onAuth) = true then { v with enabled := true } else v) = u1 at hs
      split at hs
      · cases hs
      split at hs
      · cases hs
        exact ⟨other _ n v _ hv rfl (fun e => absurd e hne), hse, rfl⟩
      · cases hs
        exact ⟨other _ n v _ hv rfl (fun e => absurd e hne), hse, rfl⟩
  | message n id imp =>
    simp only at hs
    cases hv : GoMap.get st.users n with
    | none => rw [hv] at hs; cases hs
    | some v =>
      rw [hv] at hs
      simp only at hs
      by_cases hm : (id, imp) ∈ v.conns
      · rw [if_pos hm] at hs
        cases hs
        have hne : n ≠ name := by
          intro e
          rw [e] at hv
          rw [hself v hv] at hm
          exact absurd hm List.not_mem_nil
        refine ⟨⟨u, hu, hcn⟩, ?_, rfl⟩
        cases imp <;> simp [seenAt, hne]
      · rw [if_neg hm] at hs; cases hs
  | logout n id imp =>
    simp only at hs
    cases hv : GoMap.get st.users n with
    | none => rw [hv] at hs; cases hs
    | some v =>
      rw [hv] at hs
      simp only at hs
      by_cases hm : (id, imp) ∈ v.conns
      · rw [if_pos hm] at hs
        cases hs
        have hne : n ≠ name := by
          intro e
          rw [e] at hv
          rw [hself v hv] at hm
          exact absurd hm List.not_mem_nil
        refine ⟨other _ n v _ hv rfl (fun e => absurd e hne), ?_, rfl⟩
        cases imp <;> simp [seenAt, hne]
      · rw [if_neg hm] at hs; cases hs
  | refusedLeft n id imp =>
    simp only at hs
    cases hv : GoMap.get st.users n with
    | none => rw [hv] at hs; cases hs
    | some v =>
      rw [hv] at hs
      simp only at hs
      split at hs
      · cases hs
        refine ⟨other _ n v _ hv rfl ?_, rfl, rfl⟩
        intro e
        rw [e] at hv
        cases imp <;> exact hself v hv
      · cases hs
  | setEnabled n b =>
    simp only at hs
    cases hv : GoMap.get st.users n with
    | none => rw [hv] at hs; cases hs
    | some v =>
      rw [hv] at hs
      cases hs
      refine ⟨other _ n v _ hv rfl ?_, rfl, rfl⟩
      intro e
      rw [e] at hv
      exact hself v hv
  | scan delay =>
    simp only at hs
    split at hs
    · cases hs
    · cases hs
      exact ⟨⟨u, hu, hcn⟩, rfl, rfl⟩
  | deliver =>
    simp only at hs
    split at hs
    · cases hs
    · rename_i n rest hp
      cases hv : GoMap.get st.users n with
      | none => rw [hv] at hs; cases hs
      | some v =>
        rw [hv] at hs
        cases hs
        refine ⟨other _ n v _ hv rfl ?_, rfl, rfl⟩
        intro e
        rw [e] at hv
        exact hself v hv
  | giveUp =>
    cases hs
    exact ⟨⟨u, hu, hcn⟩, rfl, rfl⟩
  | restart => exact absurd rfl hr

private theorem chosen_run {onAuth name} (mid : List (Nat × IaOp)) : ∀ {st st'}, IaChosen st name →
    (∀ p ∈ mid, p.2 ≠ .restart ∧ (∀ d, p.2 ≠ .scan d) ∧ ∀ id imp acc, p.2 ≠ .login name id imp acc) →
    iaRun onAuth st mid = some st' → IaChosen st' name ∧ seenAt name mid = [] ∧ createdAt name mid = [] := by
  induction mid with
  | nil => intro st st' hc _ hr; cases hr; exact ⟨hc, rfl, rfl⟩
  | cons p mid ih =>
    intro st st' hc hm hr
    obtain ⟨t, op⟩ := p
    simp only [iaRun] at hr
    cases hs : iaStep onAuth st t op with
    | none => rw [hs] at hr; cases hr
    | some st1 =>
      rw [hs] at hr
      obtain ⟨m1, _, m3⟩ := hm _ (List.mem_cons_self ..)
      obtain ⟨a1, a2, a3⟩ := chosen_step hc m1 m3 hs
      obtain ⟨b1, b2, b3⟩ := ih a1 (fun p hp => hm p (List.mem_cons_of_mem _ hp)) hr
      have e1 := seen_append name [(t, op)] mid
      have e2 := created_append name [(t, op)] mid
      rw [a2, b2] at e1
      rw [a3, b3] at e2
      exact ⟨b1, e1, e2⟩

/-- After a scan, the users that are still to be disabled were chosen by it. -/
private theorem pending_run {onAuth} (mid : List (Nat × IaOp)) : ∀ {st st'},
    (∀ p ∈ mid, ∀ d, p.2 ≠ .scan d) → iaRun onAuth st mid = some st' → ∀ n ∈ st'.pending, n ∈ st.pending := by
  induction mid with
  | nil => intro st st' _ hr n hn; cases hr; exact hn
  | cons p mid ih =>
    intro st st' hm hr n hn
    obtain ⟨t, op⟩ := p
    simp only [iaRun] at hr
    cases hs : iaStep onAuth st t op with
    | none => rw [hs] at hr; cases hr
    | some st1 =>
      rw [hs] at hr
      have h1 := ih (fun p hp => hm p (List.mem_cons_of_mem _ hp)) hr n hn
      have hns := hm _ (List.mem_cons_self ..)
      have key : ∀ m ∈ st1.pending, m ∈ st.pending := by
        unfold iaStep at hs
        split at hs
        · cases hs
        · cases op with
          | scan d => exact absurd rfl (hns d)
          | deliver =>
            simp only at hs
            split at hs
            · cases hs
            · rename_i nm rest hp
              split at hs
              · cases hs
              · cases hs
                intro m hm'
                rw [hp]
                exact List.mem_cons_of_mem _ hm'
          | giveUp => cases hs; intro m hm'; exact absurd hm' List.not_mem_nil
          | restart => cases hs; intro m hm'; exact absurd hm' List.not_mem_nil
          | create _ => simp only at hs; split at hs <;> cases hs <;> exact fun _ x => x
          | setEnabled _ _ => simp only at hs; split at hs <;> cases hs <;> exact fun _ x => x
          | message _ _ _ =>
            simp only at hs; split at hs
            · cases hs
            · split at hs <;> cases hs; exact fun _ x => x
          | logout _ _ _ =>
            simp only at hs; split at hs
            · cases hs
            · split at hs <;> cases hs; exact fun _ x => x
          | refusedLeft _ _ _ =>
            simp only at hs; split at hs
            · cases hs
            · split at hs <;> cases hs; exact fun _ x => x
          | login _ _ _ _ =>
            simp only at hs; split at hs
            · cases hs
            · rename_i v _
              generalize (if (!v.enabled && onAuth) = true then { v with enabled := true } else v) = u1 at hs
              split at hs
              · cases hs
              · split at hs <;> cases hs <;> exact fun _ x => x
      exact key n h1

/-- C60, partial: take any history in which the bouncer is not restarted, that ends with a scan at time `s`, other
events, and the delivery of the scan's event to the loop of an account; suppose nobody logs in to that account
between the scan and the delivery.  Then the configured delay is not zero, the account was created and its
clients were last seen longer than the delay before the scan, and it has no client now.  Missing: logins between
the scan and the delivery, see `C60_race_violated`, and restarts, see `C60_restart_violated`. -/
theorem C60_inactive_partial (onAuth : Bool) (pre mid : List (Nat × IaOp)) (s t delay : Nat) (st st' : IaState)
    (name : Str) (rest : List Str)
    (hrun : iaRun onAuth ⟨0, [], []⟩ (pre ++ (s, .scan delay) :: mid) = some st)
    (hpend : st.pending = name :: rest)
    (hdel : iaStep onAuth st t .deliver = some st')
    (hpre : ∀ p ∈ pre, p.2 ≠ .restart)
    (hmid : ∀ p ∈ mid, p.2 ≠ .restart ∧ (∀ d, p.2 ≠ .scan d) ∧ ∀ id imp acc, p.2 ≠ .login name id imp acc) :
    delay ≠ 0 ∧
    (∀ x ∈ seenAt name (pre ++ (s, .scan delay) :: mid), x + delay < s) ∧
    (∀ x ∈ createdAt name (pre ++ (s, .scan delay) :: mid), x + delay < s) ∧
    ∃ u, GoMap.get st'.users name = some u ∧ u.conns = [] := by
  rw [run_append] at hrun
  cases h0 : iaRun onAuth ⟨0, [], []⟩ pre with
  | none => rw [h0] at hrun; cases hrun
  | some st0 =>
    rw [h0] at hrun
    simp only [Option.bind_some, iaRun] at hrun
    cases h1 : iaStep onAuth st0 s (.scan delay) with
    | none => rw [h1] at hrun; cases hrun
    | some st1 =>
      rw [h1] at hrun
      simp only at hrun
      have hinv0 : IaInv ⟨0, [], []⟩ [] := by
        refine ⟨fun n u hu => ?_, fun n _ => ⟨rfl, rfl⟩, List.nodup_nil⟩
        cases hu
      have hi := inv_run pre hinv0 hpre h0
      rw [List.nil_append] at hi
      have hpd := pending_run mid (fun p hp => (hmid p hp).2.1) hrun name (by rw [hpend]; exact List.mem_cons_self ..)
      have hst1 : st1.users = st0.users ∧ st1.pending = iaScan s delay st0.users := by
        unfold iaStep at h1
        split at h1
        · cases h1
        · simp only at h1
          split at h1 <;> cases h1
          exact ⟨rfl, rfl⟩
      rw [hst1.2] at hpd
      unfold iaScan at hpd
      by_cases hd : delay = 0
      · rw [if_pos hd] at hpd; exact absurd hpd List.not_mem_nil
      rw [if_neg hd] at hpd
      obtain ⟨⟨n, u⟩, hp, hn⟩ := List.mem_map.1 hpd
      cases hn
      obtain ⟨hp, hc⟩ := List.mem_filter.1 hp
      obtain ⟨hp, hst⟩ := List.mem_filter.1 hp
      have hu := mget_of_mem hi.2.2 hp
      have hcn : u.conns = [] := by
        have := of_decide_eq_true hc
        simp only at this
        exact List.eq_nil_of_length_eq_zero (by omega)
      have hstale : u.stored.getD u.created + delay < s := of_decide_eq_true hst
      have hgood := hi.1 n u hu
      have hch : IaChosen st1 n := ⟨u, by rw [hst1.1]; exact hu, hcn⟩
      obtain ⟨⟨v, hv, hvc⟩, e1, e2⟩ := chosen_run mid hch hmid hrun
      refine ⟨hd, ?_, ?_, ?_⟩
      · intro x hx
        rw [seen_append] at hx
        have : seenAt n ((s, IaOp.scan delay) :: mid) = seenAt n mid := rfl
        rw [this, e1, List.append_nil] at hx
        rcases (hgood.1 x hx).2 with ⟨i, hi'⟩ | ⟨y, hy, hxy⟩
        · rw [hcn] at hi'; exact absurd hi' List.not_mem_nil
        · rw [hy] at hstale
          simp only [Option.getD_some] at hstale
          omega
      · intro x hx
        rw [created_append] at hx
        have : createdAt n ((s, IaOp.scan delay) :: mid) = createdAt n mid := rfl
        rw [this, e2, List.append_nil] at hx
        have hxc := hgood.2.1 x hx
        cases hy : u.stored with
        | none => rw [hy] at hstale; simp only [Option.getD_none] at hstale; omega
        | some y =>
          rw [hy] at hstale
          have := (hgood.2.2.1 y hy).1
          simp only [Option.getD_some] at hstale
          omega
      · unfold iaStep at hdel
        split at hdel
        · cases hdel
        · simp only [hpend] at hdel
          rw [hv] at hdel
          cases hdel
          exact ⟨_, mget_mset _ _ _ _ |>.trans (if_pos rfl), hvc⟩

/-- C60: nothing else disables an account: an account that is enabled before an event and disabled after it was
disabled by an administrator or by the event of a scan. -/
theorem C60_only (onAuth : Bool) (st st' : IaState) (t : Nat) (op : IaOp) (name : Str) (u u' : IaUser)
    (h : iaStep onAuth st t op = some st') (hu : GoMap.get st.users name = some u)
    (hu' : GoMap.get st'.users name = some u') (he : u.enabled = true) (hd : u'.enabled = false) :
    op = .setEnabled name false ∨ (op = .deliver ∧ ∃ rest, st.pending = name :: rest) := by
  unfold iaStep at h
  split at h
  · cases h
  have same : st'.users = st.users → False := by
    intro e
    rw [e, hu] at hu'
    cases hu'
    rw [he] at hd
    cases hd
  have setc : ∀ (n : Str) (w : IaUser), st'.users = GoMap.set st.users n w →
      n = name ∧ w.enabled = false := by
    intro n w e
    rw [e, mget_mset] at hu'
    by_cases en : n = name
    · rw [if_pos en] at hu'
      cases hu'
      exact ⟨en, hd⟩
    · rw [if_neg en, hu] at hu'
      cases hu'
      rw [he] at hd
      cases hd
  have bump : ∀ imp (w : IaUser), (iaBump t imp w).enabled = w.enabled := by
    intro imp w; cases imp <;> rfl
  cases op with
  | create n =>
    simp only at h
    split at h <;> cases h
    obtain ⟨_, e2⟩ := setc n _ rfl
    cases e2
  | login n id imp acc =>
    simp only at h
    split at h
    · cases h
    rename_i v hv
    have f1 : (if (!v.enabled && onAuth) = true then { v with enabled := true } else v).enabled = false →
        v.enabled = false := by
      split
      · intro e; cases e
      · exact fun e => e
    generalize (if (!v.enabled && onAuth) = true then { v with enabled := true } else v) = u1 at h f1
    have contra : n = name → u1.enabled = false → False := by
      intro e1 e2
      rw [e1, hu] at hv
      cases hv
      rw [he] at f1
      cases f1 e2
    split at h
    · cases h
    split at h
    · cases h
      obtain ⟨e1, e2⟩ := setc n _ rfl
      exact (contra e1 e2).elim
    · cases h
      obtain ⟨e1, e2⟩ := setc n _ rfl
      rw [bump] at e2
      exact (contra e1 e2).elim
  | message n id imp =>
    simp only at h
    split at h
    · cases h
    · split at h <;> cases h
      exact (same rfl).elim
  | logout n id imp =>
    simp only at h
    split at h
    · cases h
    · rename_i v hv
      split at h <;> cases h
      obtain ⟨e1, e2⟩ := setc n _ rfl
      rw [bump] at e2
      rw [e1, hu] at hv
      cases hv
      rw [he] at e2
      cases e2
  | refusedLeft n id imp =>
    simp only at h
    split at h
    · cases h
    · rename_i v hv
      split at h <;> cases h
      obtain ⟨e1, e2⟩ := setc n _ rfl
      rw [bump] at e2
      rw [e1, hu] at hv
      cases hv
      rw [he] at e2
      cases e2
  | setEnabled n b =>
    simp only at h
    split at h
    · cases h
    · cases h
      obtain ⟨e1, e2⟩ := setc n _ rfl
      left
      rw [e1, show b = false from e2]
  | scan delay =>
    simp only at h
    split at h <;> cases h
    exact (same rfl).elim
  | deliver =>
    simp only at h
    split at h
    · cases h
    · rename_i n rest hp
      split at h
      · cases h
      · cases h
        obtain ⟨e1, _⟩ := setc n _ rfl
        exact .inr ⟨rfl, rest, by rw [hp, e1]⟩
  | giveUp => cases h; exact (same rfl).elim
  | restart =>
    cases h
    have e : GoMap.get (st.users.map (fun p => (p.1, iaRestart p.2))) name = some (iaRestart u) := by
      have gen : ∀ m : GoMap Str IaUser, GoMap.get m name = some u →
          GoMap.get (m.map (fun p => (p.1, iaRestart p.2))) name = some (iaRestart u) := by
        intro m
        induction m with
        | nil => intro hm; cases hm
        | cons p m ih =>
          intro hm
          simp only [List.map_cons, GoMap.get] at hm ⊢
          by_cases e : p.1 = name
          · rw [if_pos e] at hm
            rw [if_pos e]
            cases hm
            rfl
          · rw [if_neg e] at hm
            rw [if_neg e]
            exact ih hm
      exact gen _ hu
    have hu'' : GoMap.get (st.users.map (fun p => (p.1, iaRestart p.2))) name = some u' := hu'
    rw [e] at hu''
    cases hu''
    have : (iaRestart u).enabled = u.enabled := rfl
    rw [this, he] at hd
    cases hd

/-- An account created at time 1, used from 2 to 5, and disabled at time 110 with a delay of 100; another one is
in use. -/
example : let pre := [(1, IaOp.create b!"al"), (1, .create b!"bo"), (2, .login b!"al" 1 false true),
      (3, .login b!"bo" 2 false true), (4, .message b!"al" 1 false), (5, .logout b!"al" 1 false)]
    let mid := [(110, IaOp.message b!"bo" 2 false)]
    ∃ st st', iaRun false ⟨0, [], []⟩ (pre ++ (109, .scan 100) :: mid) = some st ∧ st.pending = [b!"al"] ∧
      iaStep false st 110 .deliver = some st' ∧ (∀ p ∈ pre, p.2 ≠ .restart) ∧
      (∀ p ∈ mid, p.2 ≠ .restart ∧ (∀ d, p.2 ≠ .scan d) ∧ ∀ id imp acc, p.2 ≠ .login b!"al" id imp acc) ∧
      seenAt b!"al" (pre ++ (109, .scan 100) :: mid) = [2, 4, 5] ∧
      (GoMap.get st.users b!"al").map (·.enabled) = some true ∧
      (GoMap.get st'.users b!"al").map (·.enabled) = some false := by
  refine ⟨_, _, rfl, by decide, rfl, by decide, ?_, by decide, by decide, by decide⟩
  intro p hp
  simp only [List.mem_singleton] at hp
  subst hp
  refine ⟨by decide, fun d e => (nomatch e), fun _ _ _ e => (nomatch e)⟩

/-- C60, disagreement: a client that logs in after the scan and before its event is handled is thrown out again:
the account is disabled with a client connected and seen this very moment. -/
theorem C60_race_violated : ∃ (h : List (Nat × IaOp)) (st st' : IaState),
    iaRun false ⟨0, [], []⟩ (h ++ [(200, .login b!"al" 7 false true)]) = some st ∧
    iaStep false st 200 .deliver = some st' ∧
    (GoMap.get st.users b!"al").map (·.enabled) = some true ∧
    (GoMap.get st'.users b!"al").map (fun u => (u.enabled, u.conns)) = some (false, [(7, false)]) :=
  ⟨[(1, .create b!"al"), (200, .scan 100)], _, _, rfl, rfl, by decide, by decide⟩

/-- C60, disagreement: the time of the last activity is stored when a client connects and disconnects, but not
when the bouncer stops.  A client that has been connected for longer than the delay when the bouncer is restarted
has its account disabled although it was seen, and connected, a moment before. -/
theorem C60_restart_violated : ∃ (h : List (Nat × IaOp)) (st st' : IaState),
    iaRun false ⟨0, [], []⟩ (h ++ [(202, .scan 100)]) = some st ∧ 200 ∈ seenAt b!"al" h ∧
    iaStep false st 203 .deliver = some st' ∧
    (GoMap.get st.users b!"al").map (fun u => (u.enabled, u.conns)) = some (true, []) ∧
    (GoMap.get st'.users b!"al").map (·.enabled) = some false :=
  ⟨[(1, .create b!"al"), (2, .login b!"al" 7 false true), (200, .message b!"al" 7 false), (201, .restart)],
    _, _, rfl, by decide, rfl, by decide, by decide⟩

end Verif.Props
