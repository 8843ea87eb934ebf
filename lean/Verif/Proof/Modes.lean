import Verif.Model.Modes
import Verif.Spec.Modes
import Verif.Proof.Casemap

namespace Verif.Proof
open Verif.Model Verif.Spec

/-! ## Membership sets -/

theorem filter_or_eq_of_empty {l : List Membership} (hnd : l.Nodup) {n : Membership} (hn : n ∈ l)
    {p : Membership → Bool} (he : l.filter p = []) :
    l.filter (fun m => p m || decide (m = n)) = [n] := by
  induction l with
  | nil => simp at hn
  | cons a l ih =>
    rw [List.nodup_cons] at hnd
    simp only [List.filter_cons] at he ⊢
    split at he
    · simp at he
    · rename_i hpa
      rcases List.mem_cons.1 hn with rfl | hn'
      · have : l.filter (fun m => p m || decide (m = n)) = [] := by
          rw [List.filter_eq_nil_iff] at he ⊢
          intro m hm
          have := he m hm
          have hne : m ≠ n := by rintro rfl; exact hnd.1 hm
          simp [this, hne]
        simp [this]
      · have hne : a ≠ n := by rintro rfl; exact hnd.1 hn'
        simp [hpa, hne, ih hnd.2 hn' he]

theorem filter_or_eq_of_not_mem {l : List Membership} {n : Membership} (hn : n ∉ l)
    (p : Membership → Bool) :
    l.filter (fun m => p m || decide (m = n)) = l.filter p := by
  apply List.filter_congr
  intro m hm
  have : m ≠ n := by rintro rfl; exact hn hm
  simp [this]

/-- What `Add` does with the result of its loop. -/
def insertAt (l : MembershipSet) (n : Membership) : Option Nat → MembershipSet
  | none => l
  | some i => l.take i ++ n :: l.drop i

theorem addLoop_filter (as : List Membership) (hnd : as.Nodup) (n : Membership) (hn : n ∈ as)
    (p : Membership → Bool) (pre : List Membership) :
    insertAt (pre ++ as.filter p) n (MembershipSet.addLoop as (pre ++ as.filter p) n pre.length)
      = pre ++ as.filter (fun m => p m || decide (m = n)) := by
  induction as generalizing pre with
  | nil => simp at hn
  | cons a as ih =>
    rw [List.nodup_cons] at hnd
    by_cases hpa : p a = true
    · have h1 : (a :: as).filter p = a :: as.filter p := by simp [hpa]
      rw [h1]
      simp only [MembershipSet.addLoop]
      rw [List.getElem?_append_right (Nat.le_refl _)]
      simp only [Nat.sub_self, List.getElem?_cons_zero, if_true]
      by_cases hane : a = n
      · subst hane
        simp [insertAt, filter_or_eq_of_not_mem hnd.1]
      · rcases List.mem_cons.1 hn with rfl | hn'
        · exact absurd rfl hane
        · have := ih hnd.2 hn' (pre ++ [a])
          simp only [List.append_assoc, List.singleton_append, List.length_append,
            List.length_singleton] at this
          simp [hane, this, hpa]
    · have h1 : (a :: as).filter p = as.filter p := by simp [hpa]
      rw [h1]
      simp only [MembershipSet.addLoop]
      rw [List.getElem?_append_right (Nat.le_refl _)]
      simp only [Nat.sub_self]
      by_cases hane : a = n
      · subst hane
        have hins : insertAt (pre ++ as.filter p) a (some pre.length)
            = pre ++ (a :: as).filter (fun m => p m || decide (m = a)) := by
          simp [insertAt, filter_or_eq_of_not_mem hnd.1]
        cases hx : (as.filter p)[0]? with
        | none => simpa using hins
        | some x =>
          have hmem : x ∈ as.filter p := List.mem_of_getElem? hx
          have hne : x ≠ a := by
            rintro rfl
            exact hnd.1 (List.mem_filter.1 hmem).1
          simpa [hne] using hins
      · rcases List.mem_cons.1 hn with rfl | hn'
        · exact absurd rfl hane
        · have h2 : (a :: as).filter (fun m => p m || decide (m = n))
              = as.filter (fun m => p m || decide (m = n)) := by
            simp [hpa, hane]
          rw [h2]
          cases hx : (as.filter p)[0]? with
          | none =>
            have he : as.filter p = [] := by
              cases hf : as.filter p with
              | nil => rfl
              | cons y ys => rw [hf] at hx; simp at hx
            simp [insertAt, he, filter_or_eq_of_empty hnd.2 hn' he]
          | some x =>
            have hmem : x ∈ as.filter p := List.mem_of_getElem? hx
            have hne : x ≠ a := by
              rintro rfl
              exact hnd.1 (List.mem_filter.1 hmem).1
            simp only [hne, if_false, hane]
            exact ih hnd.2 hn' pre

theorem add_filter {avail : List Membership} (hnd : avail.Nodup) {n : Membership} (hn : n ∈ avail)
    (p : Membership → Bool) :
    MembershipSet.add avail (avail.filter p) n
      = avail.filter (fun m => p m || decide (m = n)) := by
  have := addLoop_filter avail hnd n hn p []
  simp only [List.nil_append, List.length_nil] at this
  rw [← this]
  unfold MembershipSet.add insertAt
  split <;> rename_i h <;> simp [h]

theorem remove_filter {avail : List Membership} (hnd : avail.Nodup) (n : Membership)
    (p : Membership → Bool) :
    MembershipSet.remove (avail.filter p) n
      = avail.filter (fun m => p m && !decide (m = n)) := by
  induction avail with
  | nil => rfl
  | cons a l ih =>
    rw [List.nodup_cons] at hnd
    simp only [List.filter_cons]
    by_cases hpa : p a = true
    · simp only [hpa, if_true, MembershipSet.remove, Bool.true_and]
      by_cases hane : a = n
      · subst hane
        have : l.filter (fun m => p m && !decide (m = a)) = l.filter p := by
          apply List.filter_congr
          intro m hm
          have : m ≠ a := by rintro rfl; exact hnd.1 hm
          simp [this]
        simp [this]
      · simp [hane, ih hnd.2]
    · simp [hpa, ih hnd.2]

theorem lastChange_append {α : Type} [DecidableEq α] (x : α) (l l' : List (α × Bool)) :
    lastChange x (l ++ l') = (lastChange x l').or (lastChange x l) := by
  induction l with
  | nil => simp [lastChange]
  | cons p l ih =>
    obtain ⟨y, b⟩ := p
    simp only [List.cons_append, lastChange, ih]
    cases lastChange x l' <;> simp

theorem heldAfter_cons {α : Type} [DecidableEq α] (bf : Bool) (x y : α) (b : Bool)
    (l : List (α × Bool)) :
    heldAfter bf x ((y, b) :: l) = heldAfter (if y = x then b else bf) x l := by
  unfold heldAfter
  simp only [lastChange]
  cases lastChange x l with
  | some r => rfl
  | none =>
    simp only
    split <;> rename_i h <;> split at h <;> simp_all

/-- One grant or revocation, as the code performs it. -/
def applyStatus (avail : List Membership) (l : MembershipSet) (c : Membership × Bool) : MembershipSet :=
  if c.2 then MembershipSet.add avail l c.1 else MembershipSet.remove l c.1

theorem applyStatus_run {avail : List Membership} (hnd : avail.Nodup)
    (cs : List (Membership × Bool)) (hcs : ∀ c ∈ cs, c.1 ∈ avail) (p : Membership → Bool) :
    cs.foldl (applyStatus avail) (avail.filter p)
      = avail.filter (fun m => heldAfter (p m) m cs) := by
  induction cs generalizing p with
  | nil => simp [heldAfter, lastChange]
  | cons c cs ih =>
    obtain ⟨n, b⟩ := c
    have hn : n ∈ avail := hcs _ (List.mem_cons_self ..)
    have hcs' : ∀ c ∈ cs, c.1 ∈ avail := fun c hc => hcs c (List.mem_cons_of_mem _ hc)
    simp only [List.foldl_cons, applyStatus]
    cases b with
    | true =>
      simp only [if_true, add_filter hnd hn]
      rw [ih hcs']
      apply List.filter_congr
      intro m _
      rw [heldAfter_cons]
      by_cases h : n = m
      · subst h; simp
      · have : m ≠ n := fun e => h e.symm
        simp [h, this]
    | false =>
      simp only [Bool.false_eq_true, if_false, remove_filter hnd]
      rw [ih hcs']
      apply List.filter_congr
      intro m _
      rw [heldAfter_cons]
      by_cases h : n = m
      · subst h; simp
      · have : m ≠ n := fun e => h e.symm
        simp [h, this]

theorem sublist_eq_filter {avail r : List Membership} (hnd : avail.Nodup) (h : r.Sublist avail) :
    r = avail.filter (fun m => decide (m ∈ r)) := by
  induction h with
  | slnil => rfl
  | @cons l₁ l₂ a hs ih =>
    rw [List.nodup_cons] at hnd
    have ha : a ∉ l₁ := fun hm => hnd.1 (hs.subset hm)
    simp only [List.filter_cons, ha, decide_false, Bool.false_eq_true, if_false]
    exact ih hnd.2
  | @cons_cons l₁ l₂ a hs ih =>
    rw [List.nodup_cons] at hnd
    simp only [List.filter_cons, List.mem_cons_self, decide_true, if_true]
    congr 1
    rw [ih hnd.2]
    apply List.filter_congr
    intro m hm
    have : m ≠ a := by rintro rfl; exact hnd.1 hm
    rw [← ih hnd.2]
    simp [this]

/-! ## User modes -/

theorem letterString_ascii {c : Byte} (h : c < 128) : letterString c = [c] := by
  unfold letterString; rw [if_pos h]

theorem um_add_nodup {ms : UserModes} (h : ms.Nodup) (c : Byte) (hc : c < 128) : (UserModes.add ms c).Nodup := by
  unfold UserModes.add UserModes.has
  rw [letterString_ascii hc]
  split
  · rename_i hc
    rw [List.nodup_append]
    refine ⟨h, by simp, ?_⟩
    intro a ha b hb
    simp at hb hc
    subst hb
    rintro rfl
    exact hc ha
  · exact h

theorem um_mem_add {ms : UserModes} {c x : Byte} (hc : c < 128) : x ∈ UserModes.add ms c ↔ x ∈ ms ∨ x = c := by
  unfold UserModes.add UserModes.has
  rw [letterString_ascii hc]
  split
  · simp
  · rename_i hc
    simp at hc
    constructor
    · exact .inl
    · rintro (h | rfl) <;> assumption

theorem um_del_eq_erase (ms : UserModes) (c : Byte) : UserModes.del ms c = List.erase ms c := by
  induction ms with
  | nil => rfl
  | cons x l ih =>
    simp only [UserModes.del, List.erase_cons]
    split <;> simp_all

theorem signedLetters_some_ne_none (b : Bool) (s : Str) : signedLetters (some b) s ≠ none := by
  induction s generalizing b with
  | nil => simp [signedLetters]
  | cons c s ih =>
    unfold signedLetters
    split
    · simp
    · rename_i heq
      simp only [List.cons.injEq] at heq
      rw [← heq.2]
      exact ih _
    · rename_i heq
      simp only [List.cons.injEq] at heq
      rw [← heq.2]
      exact ih _
    · rename_i heq
      simp only [List.cons.injEq] at heq
      rw [← heq.2]
      simpa using ih b

theorem signedLetters_cons {c : Byte} (h1 : ¬ c = 43) (h2 : ¬ c = 45) (b : Bool) (s : Str) :
    signedLetters (some b) (c :: s) = (signedLetters (some b) s).map ((c, b) :: ·) := by
  rw [signedLetters]
  · simpa using h1
  · simpa using h2

theorem um_applyLoop (s : Str) (ms : UserModes) (h : ms.Nodup) (pm : Option Bool)
    (ha : ∀ c ∈ s, c < 128) :
    (UserModes.applyLoop ms pm s).1.Nodup ∧
    match signedLetters pm s with
    | none => UserModes.applyLoop ms pm s = (ms, false)
    | some l => (UserModes.applyLoop ms pm s).2 = true ∧
        ∀ x, x ∈ (UserModes.applyLoop ms pm s).1 ↔ heldAfter (decide (x ∈ ms)) x l = true := by
  fun_induction UserModes.applyLoop ms pm s with
  | case1 ms pm => exact ⟨h, rfl, by simp [heldAfter, lastChange]⟩
  | case2 ms pm s ih => simpa [signedLetters] using ih h (fun c hc => ha c (by simp [hc]))
  | case3 ms pm s hc ih => simpa [signedLetters] using ih h (fun c hc => ha c (by simp [hc]))
  | case4 ms c s h1 h2 ih =>
    obtain ⟨ih1, ih2⟩ := ih (um_add_nodup h c (ha c (by simp))) (fun c hc => ha c (by simp [hc]))
    refine ⟨ih1, ?_⟩
    rw [signedLetters]
    · cases hs : signedLetters (some true) s with
      | none =>
        exact absurd hs (signedLetters_some_ne_none _ s)
      | some l =>
        rw [hs] at ih2
        simp only [Option.map_some]
        refine ⟨ih2.1, ?_⟩
        intro x
        rw [ih2.2 x, heldAfter_cons]
        by_cases hx : c = x
        · subst hx; simp [um_mem_add (ha c (by simp))]
        · have : x ≠ c := fun e => hx e.symm
          simp [um_mem_add (ha c (by simp)), hx, this]
    · simpa using h1
    · simpa using h2
  | case5 ms c s h1 h2 ih =>
    have hd : (UserModes.del ms c).Nodup := by rw [um_del_eq_erase]; exact h.erase _
    obtain ⟨ih1, ih2⟩ := ih hd (fun c hc => ha c (by simp [hc]))
    refine ⟨ih1, ?_⟩
    rw [signedLetters]
    · cases hs : signedLetters (some false) s with
      | none =>
        exact absurd hs (signedLetters_some_ne_none _ s)
      | some l =>
        rw [hs] at ih2
        simp only [Option.map_some]
        refine ⟨ih2.1, ?_⟩
        intro x
        rw [ih2.2 x, heldAfter_cons]
        simp only [um_del_eq_erase, h.mem_erase_iff]
        by_cases hx : c = x
        · subst hx; simp
        · have : x ≠ c := fun e => hx e.symm
          simp [hx, this]
    · simpa using h1
    · simpa using h2
  | case6 ms c s h1 h2 =>
    refine ⟨h, ?_⟩
    rw [signedLetters]
    · simpa using h1
    · simpa using h2

/-! ## Channel modes -/

/-- How the code classifies a letter: advertised memberships first, then CHANMODES. -/
def kindOf (env : ModeEnv) (c : Byte) : LetterKind :=
  if c ∈ env.availableMemberships.map (·.mode) then .membership
  else
    match GoMap.get env.availableChannelModes c with
    | none => .unknown
    | some .A => .list
    | some .B => .always
    | some .C => .onSet
    | some .D => .flag

/-- Recursive form of the attribution of arguments. -/
def attrFrom (kind : Byte → LetterKind) (args : List Str) (n : Nat) :
    List (Byte × Bool) → List Change
  | [] => []
  | l :: ls =>
    { letter := l.1, plus := l.2,
      arg := if takesArg (kind l.1) l.2 then args[n]? else none } ::
    attrFrom kind args (n + if takesArg (kind l.1) l.2 then 1 else 0) ls

theorem attrFrom_eq (kind : Byte → LetterKind) (args : List Str) (n : Nat)
    (ls : List (Byte × Bool)) :
    attrFrom kind args n ls = ls.mapIdx (fun i l =>
      { letter := l.1
        plus := l.2
        arg := if takesArg (kind l.1) l.2 then
                 args[n + (ls.take i).countP (fun l => takesArg (kind l.1) l.2)]?
               else none }) := by
  induction ls generalizing n with
  | nil => rfl
  | cons l ls ih =>
    simp only [attrFrom, List.mapIdx_cons, List.take_zero, List.countP_nil, Nat.add_zero, ih,
      List.take_succ_cons, List.countP_cons]
    congr 2
    funext i l'
    have : n + (if takesArg (kind l.1) l.2 then 1 else 0) +
        List.countP (fun l => takesArg (kind l.1) l.2) (List.take i ls)
        = n + (List.countP (fun l => takesArg (kind l.1) l.2) (List.take i ls) +
          if takesArg (kind l.1) l.2 = true then 1 else 0) := by omega
    rw [this]

theorem attributed_eq (kind : Byte → LetterKind) (args : List Str) (ls : List (Byte × Bool)) :
    attributed kind ls args = attrFrom kind args 0 ls := by
  rw [attrFrom_eq]; simp [attributed]

/-- One attributed change, as the code performs it. -/
def applyChange (env : ModeEnv) (ch : ChanModeState) (c : Change) : ChanModeState :=
  match kindOf env c.letter, c.arg with
  | .membership, some a =>
    match findMembership env c.letter with
    | some ms => applyMembership env ch c.plus ms a
    | none => ch
  | .always, a => if c.plus then setMode ch c.letter (a.getD []) else delMode ch c.letter
  | .onSet, a => if c.plus then setMode ch c.letter (a.getD []) else delMode ch c.letter
  | .flag, _ => if c.plus then setMode ch c.letter [] else delMode ch c.letter
  | _, _ => ch

theorem findMembership_none_iff (env : ModeEnv) (c : Byte) :
    findMembership env c = none ↔ c ∉ env.availableMemberships.map (·.mode) := by
  unfold findMembership
  simp [List.find?_eq_none]

theorem kind_membership {env : ModeEnv} {c : Byte} (hk : kindOf env c = .membership) :
    findMembership env c ≠ none := by
  rw [Ne, findMembership_none_iff]
  intro h
  unfold kindOf at hk
  rw [if_neg h] at hk
  split at hk <;> simp at hk

/-- Every membership letter owns an argument. -/
def MembersHaveArg (env : ModeEnv) (cs : List Change) : Prop :=
  ∀ c ∈ cs, kindOf env c.letter = .membership → c.arg ≠ none

theorem applyLoop_ok (env : ModeEnv) (args : List Str) (s : Str) (ch : ChanModeState)
    (pm : Option Bool) (n : Nat) (ls : List (Byte × Bool)) (hs : signedLetters pm s = some ls) :
    (MembersHaveArg env (attrFrom (kindOf env) args n ls) →
      applyChannelModesLoop env args ch pm n s
        = ((attrFrom (kindOf env) args n ls).foldl (applyChange env) ch, true)) ∧
    (¬ MembersHaveArg env (attrFrom (kindOf env) args n ls) →
      (applyChannelModesLoop env args ch pm n s).2 = false) := by
  induction s generalizing ch pm n ls with
  | nil =>
    simp only [signedLetters, Option.some.injEq] at hs
    subst hs
    simp [attrFrom, applyChannelModesLoop, MembersHaveArg]
  | cons c s ih =>
    by_cases h1 : c = 43
    · subst h1
      simp only [signedLetters] at hs
      simpa [applyChannelModesLoop] using ih ch (some true) n ls hs
    by_cases h2 : c = 45
    · subst h2
      simp only [signedLetters] at hs
      simpa [applyChannelModesLoop] using ih ch (some false) n ls hs
    cases pm with
    | none =>
      rw [signedLetters] at hs
      · simp at hs
      · simpa using h1
      · simpa using h2
    | some b =>
      rw [signedLetters_cons h1 h2] at hs
      cases hs' : signedLetters (some b) s with
      | none => rw [hs'] at hs; simp at hs
      | some ls' =>
        rw [hs'] at hs
        simp only [Option.map_some, Option.some.injEq] at hs
        subst hs
        have IH := fun ch' n' => ih ch' (some b) n' ls' hs'
        simp only [applyChannelModesLoop, h1, h2, if_false, attrFrom]
        cases hf : findMembership env c with
        | some ms =>
          have hk : kindOf env c = .membership := by
            unfold kindOf
            have : ¬ (c ∉ env.availableMemberships.map (·.mode)) := by
              rw [← findMembership_none_iff, hf]; simp
            simp only [Decidable.not_not] at this
            simp [this]
          simp only [hk, takesArg, if_true, List.foldl_cons]
          cases ha : args[n]? with
          | none =>
            refine ⟨?_, fun _ => rfl⟩
            intro hm
            exact absurd rfl (hm _ (List.mem_cons_self ..) hk)
          | some a =>
            have hiff : MembersHaveArg env ({ letter := c, plus := b, arg := some a } ::
                  attrFrom (kindOf env) args (n + 1) ls')
                ↔ MembersHaveArg env (attrFrom (kindOf env) args (n + 1) ls') := by
              simp [MembersHaveArg]
            simp only [hiff]
            have := IH (applyMembership env ch b ms a) (n + 1)
            simpa [applyChange, hk, hf] using this
        | none =>
          have hnm := (findMembership_none_iff env c).1 hf
          have hiff : ∀ (a : Option Str) (m : Nat), kindOf env c ≠ .membership →
              (MembersHaveArg env ({ letter := c, plus := b, arg := a } ::
                  attrFrom (kindOf env) args m ls')
                ↔ MembersHaveArg env (attrFrom (kindOf env) args m ls')) := by
            intro a m hne
            simp [MembersHaveArg, hne]
          cases hg : GoMap.get env.availableChannelModes c with
          | none =>
            have hk : kindOf env c = .unknown := by simp only [kindOf, hnm, if_false, hg]
            have := IH ch n
            simp only [hk, takesArg, Bool.false_eq_true, if_false, Nat.add_zero, List.foldl_cons]
            rw [hiff _ _ (by simp [hk])]
            simpa [applyChange, hk] using this
          | some mt =>
            cases mt with
            | A =>
              have hk : kindOf env c = .list := by simp only [kindOf, hnm, if_false, hg]
              have := IH ch (n + 1)
              simp only [hk, takesArg, if_true, List.foldl_cons]
              rw [hiff _ _ (by simp [hk])]
              simpa [applyChange, hk] using this
            | B =>
              have hk : kindOf env c = .always := by simp only [kindOf, hnm, if_false, hg]
              simp only [hk, takesArg, if_true, List.foldl_cons, true_or]
              rw [hiff _ _ (by simp [hk])]
              cases b with
              | true =>
                have := IH (setMode ch c (args[n]?.getD [])) (n + 1)
                have he : (if n < args.length then args[n]?.getD [] else []) = args[n]?.getD [] := by
                  split
                  · rfl
                  · rw [List.getElem?_eq_none (by omega)]; rfl
                simpa [applyChange, hk, he] using this
              | false =>
                have := IH (delMode ch c) (n + 1)
                simpa [applyChange, hk] using this
            | C =>
              have hk : kindOf env c = .onSet := by simp only [kindOf, hnm, if_false, hg]
              cases b with
              | true =>
                simp only [hk, takesArg, if_true, List.foldl_cons, and_true, or_true]
                rw [hiff _ _ (by simp [hk])]
                have := IH (setMode ch c (args[n]?.getD [])) (n + 1)
                have he : (if n < args.length then args[n]?.getD [] else []) = args[n]?.getD [] := by
                  split
                  · rfl
                  · rw [List.getElem?_eq_none (by omega)]; rfl
                simpa [applyChange, hk, he] using this
              | false =>
                simp only [hk, takesArg, Bool.false_eq_true, if_false, List.foldl_cons, Nat.add_zero]
                rw [hiff _ _ (by simp [hk])]
                have := IH (delMode ch c) n
                simpa [applyChange, hk] using this
            | D =>
              have hk : kindOf env c = .flag := by simp only [kindOf, hnm, if_false, hg]
              simp only [hk, takesArg, Bool.false_eq_true, if_false, List.foldl_cons, Nat.add_zero]
              rw [hiff _ _ (by simp [hk])]
              cases b with
              | true =>
                have := IH (setMode ch c []) n
                simpa [applyChange, hk] using this
              | false =>
                have := IH (delMode ch c) n
                simpa [applyChange, hk] using this

theorem applyLoop_malformed (env : ModeEnv) (args : List Str) (s : Str) (ch : ChanModeState)
    (n : Nat) (hs : signedLetters none s = none) :
    applyChannelModesLoop env args ch none n s = (ch, false) := by
  unfold signedLetters at hs
  split at hs
  · simp at hs
  · exact absurd hs (signedLetters_some_ne_none _ _)
  · exact absurd hs (signedLetters_some_ne_none _ _)
  · rename_i c s h1 h2
    have h1' : ¬ c = 43 := by simpa using h1
    have h2' : ¬ c = 45 := by simpa using h2
    simp [applyChannelModesLoop, h1', h2']

/-- Channel mode map after a list of changes. -/
theorem modes_foldl (env : ModeEnv) (cs : List Change) (ch : ChanModeState)
    (hwf : ∀ c ∈ cs, kindOf env c.letter = .flag → c.arg = none) :
    (cs.foldl (applyChange env) ch).modes.isSome = ch.modes.isSome ∧
    ∀ m, ch.modes = some m → ∃ m', (cs.foldl (applyChange env) ch).modes = some m' ∧
      ∀ x, GoMap.get m' x = modeAfter (kindOf env) x (GoMap.get m x) cs := by
  induction cs generalizing ch with
  | nil =>
    refine ⟨rfl, ?_⟩
    intro m hm
    exact ⟨m, hm, fun _ => rfl⟩
  | cons c cs ih =>
    have hwf' : ∀ c ∈ cs, kindOf env c.letter = .flag → c.arg = none :=
      fun c hc => hwf c (List.mem_cons_of_mem _ hc)
    have hwfc := hwf c (List.mem_cons_self ..)
    simp only [List.foldl_cons]
    have key : (applyChange env ch c).modes.isSome = ch.modes.isSome ∧
        ∀ m, ch.modes = some m → ∃ m', (applyChange env ch c).modes = some m' ∧
          ∀ x, GoMap.get m' x =
            if c.letter = x ∧ (kindOf env x = .always ∨ kindOf env x = .onSet ∨ kindOf env x = .flag)
            then (if c.plus then some (c.arg.getD []) else none) else GoMap.get m x := by
      unfold applyChange
      cases hk : kindOf env c.letter with
      | membership =>
        have hx : ∀ (m : GoMap Byte Str) x, GoMap.get m x =
            if c.letter = x ∧ (kindOf env x = .always ∨ kindOf env x = .onSet ∨ kindOf env x = .flag)
            then (if c.plus then some (c.arg.getD []) else none) else GoMap.get m x := by
          intro m x
          split
          · rename_i h
            obtain ⟨rfl, h⟩ := h
            simp [hk] at h
          · rfl
        have hsame : ∀ st : ChanModeState, st.modes = ch.modes →
            st.modes.isSome = ch.modes.isSome ∧
            ∀ m, ch.modes = some m → ∃ m', st.modes = some m' ∧
              ∀ x, GoMap.get m' x =
              if c.letter = x ∧ (kindOf env x = .always ∨ kindOf env x = .onSet ∨ kindOf env x = .flag)
              then (if c.plus then some (c.arg.getD []) else none) else GoMap.get m x := by
          intro st hst
          refine ⟨by rw [hst], ?_⟩
          intro m hm
          exact ⟨m, by rw [hst, hm], hx m⟩
        cases ha : c.arg with
        | none => simpa [ha] using hsame ch rfl
        | some a =>
          simp only
          cases hf : findMembership env c.letter with
          | none => simpa [ha] using hsame ch rfl
          | some ms =>
            rw [← ha]
            apply hsame
            unfold applyMembership
            cases ch.members.get a <;> rfl
      | list =>
        refine ⟨rfl, ?_⟩
        intro m hm
        refine ⟨m, hm, ?_⟩
        intro x
        split
        · rename_i h; obtain ⟨rfl, h⟩ := h; simp [hk] at h
        · rfl
      | unknown =>
        refine ⟨rfl, ?_⟩
        intro m hm
        refine ⟨m, hm, ?_⟩
        intro x
        split
        · rename_i h; obtain ⟨rfl, h⟩ := h; simp [hk] at h
        · rfl
      | always =>
        simp only
        cases hp : c.plus <;>
        · simp only [Bool.false_eq_true, if_false, if_true, setMode, delMode, Option.isSome_map, true_and]
          intro m hm
          rw [hm]
          refine ⟨_, rfl, ?_⟩
          intro x
          simp only [mget_mset, mget_mdel]
          by_cases hx : c.letter = x
          · subst hx; simp [hk]
          · simp [hx]
      | onSet =>
        simp only
        cases hp : c.plus <;>
        · simp only [Bool.false_eq_true, if_false, if_true, setMode, delMode, Option.isSome_map, true_and]
          intro m hm
          rw [hm]
          refine ⟨_, rfl, ?_⟩
          intro x
          simp only [mget_mset, mget_mdel]
          by_cases hx : c.letter = x
          · subst hx; simp [hk]
          · simp [hx]
      | flag =>
        have ha := hwfc hk
        simp only [ha]
        cases hp : c.plus <;>
        · simp only [Bool.false_eq_true, if_false, if_true, setMode, delMode, Option.isSome_map, true_and]
          intro m hm
          rw [hm]
          refine ⟨_, rfl, ?_⟩
          intro x
          simp only [mget_mset, mget_mdel]
          by_cases hx : c.letter = x
          · subst hx; simp [hk]
          · simp [hx]
    obtain ⟨ih1, ih2⟩ := ih (applyChange env ch c) hwf'
    refine ⟨by rw [ih1, key.1], ?_⟩
    intro m hm
    obtain ⟨m1, hm1, hg1⟩ := key.2 m hm
    obtain ⟨m2, hm2, hg2⟩ := ih2 m1 hm1
    refine ⟨m2, hm2, ?_⟩
    intro x
    rw [hg2 x, hg1 x]
    rfl

theorem attrFrom_flag_none (kind : Byte → LetterKind) (args : List Str) (n : Nat)
    (ls : List (Byte × Bool)) :
    ∀ c ∈ attrFrom kind args n ls, kind c.letter = .flag → c.arg = none := by
  induction ls generalizing n with
  | nil => simp [attrFrom]
  | cons l ls ih =>
    intro c hc hk
    simp only [attrFrom, List.mem_cons] at hc
    rcases hc with rfl | hc
    · simp only at hk
      simp [hk, takesArg]
    · exact ih _ c hc hk

/-- Decision procedure for "same member" under the map's case mapping. -/
def sameB (cm : CaseMapping) (a b : Str) : Bool := decide (SameName (sysOf cm) a b)

theorem get_set_cm {V : Type} (c : CMMap V) (n q : Str) (v : V) :
    (c.set n v).get q = if SameName (sysOf c.cm) n q then some v else c.get q := by
  unfold CMMap.get
  rw [set_cm, mget_set]
  simp only [casemap_eq_iff]
  split
  · cases GoMap.get c.m (casemap c.cm q) <;> simp
  · rfl

theorem get_congr {V : Type} (c : CMMap V) {a b : Str} (h : SameName (sysOf c.cm) a b) : c.get a = c.get b := by
  unfold CMMap.get
  rw [(casemap_eq_iff c.cm a b).2 h]

theorem eq_of_pairwise_ne {α β : Type} {f : α → β} {l : List α}
    (h : l.Pairwise (fun a b => f a ≠ f b)) {a b : α} (ha : a ∈ l) (hb : b ∈ l) (e : f a = f b) :
    a = b := by
  induction l with
  | nil => simp at ha
  | cons x l ih =>
    rw [List.pairwise_cons] at h
    rcases List.mem_cons.1 ha with rfl | ha' <;> rcases List.mem_cons.1 hb with rfl | hb'
    · rfl
    · exact absurd e (h.1 _ hb')
    · exact absurd e.symm (h.1 _ ha')
    · exact ih h.2 ha' hb'

/-- The statuses of member `q` after a list of changes. -/
theorem members_foldl (env : ModeEnv) (hnd : (env.availableMemberships.map (·.mode)).Nodup)
    (cs : List Change) (ch : ChanModeState) (q : Str) :
    (cs.foldl (applyChange env) ch).members.cm = ch.members.cm ∧
    (ch.members.get q = none → (cs.foldl (applyChange env) ch).members.get q = none) ∧
    ∀ p : Membership → Bool, ch.members.get q = some (env.availableMemberships.filter p) →
      (cs.foldl (applyChange env) ch).members.get q
        = some (env.availableMemberships.filter (fun m =>
            heldAfter (p m) m.mode (statusChanges (kindOf env) (sameB ch.members.cm) q cs))) := by
  have hnd' : env.availableMemberships.Nodup := by
    rw [List.Nodup, List.pairwise_map] at hnd
    exact hnd.imp (fun h e => h (by rw [e]))
  induction cs generalizing ch with
  | nil =>
    refine ⟨rfl, id, ?_⟩
    intro p hp
    simpa [statusChanges, heldAfter, lastChange] using hp
  | cons c cs ih =>
    simp only [List.foldl_cons]
    by_cases hm : ∃ a ms, kindOf env c.letter = .membership ∧ c.arg = some a ∧
        findMembership env c.letter = some ms
    · obtain ⟨a, ms, hk, ha, hf⟩ := hm
      have hmode : ms.mode = c.letter := by
        have := List.find?_some hf
        simpa using this
      have hmem : ms ∈ env.availableMemberships := List.mem_of_find?_eq_some hf
      have hap : applyChange env ch c = applyMembership env ch c.plus ms a := by
        simp [applyChange, hk, ha, hf]
      rw [hap]
      have hcm : (applyMembership env ch c.plus ms a).members.cm = ch.members.cm := by
        unfold applyMembership
        split
        · rfl
        · simp [set_cm]
      have hnone : ch.members.get q = none →
          (applyMembership env ch c.plus ms a).members.get q = none := by
        intro hq
        unfold applyMembership
        split
        · exact hq
        · rename_i r hr
          simp only [get_set_cm]
          split
          · rename_i hs
            rw [get_congr _ hs, hq] at hr
            simp at hr
          · exact hq
      obtain ⟨ih1, ih2, ih3⟩ := ih (applyMembership env ch c.plus ms a)
      refine ⟨by rw [ih1, hcm], fun hq => ih2 (hnone hq), ?_⟩
      intro p hp
      by_cases hs : SameName (sysOf ch.members.cm) a q
      · have hga : ch.members.get a = some (env.availableMemberships.filter p) := by
          rw [get_congr _ hs, hp]
        have hnew : (applyMembership env ch c.plus ms a).members.get q
            = some (applyStatus env.availableMemberships (env.availableMemberships.filter p) (ms, c.plus)) := by
          unfold applyMembership
          rw [hga]
          simp only [get_set_cm, hs, if_true, applyStatus]
        have hone := applyStatus_run hnd' [(ms, c.plus)] (by simpa using hmem) p
        simp only [List.foldl_cons, List.foldl_nil] at hone
        rw [hone] at hnew
        have := ih3 _ hnew
        rw [hcm] at this
        rw [this]
        congr 1
        apply List.filter_congr
        intro m hmm
        have hsc : statusChanges (kindOf env) (sameB ch.members.cm) q (c :: cs)
            = (c.letter, c.plus) :: statusChanges (kindOf env) (sameB ch.members.cm) q cs := by
          simp [statusChanges, hk, ha, sameB, hs]
        rw [hsc, heldAfter_cons, heldAfter_cons]
        have hinj : ms = m ↔ c.letter = m.mode := by
          constructor
          · rintro rfl; exact hmode.symm
          · intro h
            rw [← hmode] at h
            rw [List.Nodup, List.pairwise_map] at hnd
            exact eq_of_pairwise_ne hnd hmem hmm h
        simp only [hinj]
        rfl
      · have hnew : (applyMembership env ch c.plus ms a).members.get q = ch.members.get q := by
          unfold applyMembership
          split
          · rfl
          · simp [get_set_cm, hs]
        rw [← hnew] at hp
        have := ih3 _ hp
        rw [hcm] at this
        rw [this]
        have hsc : statusChanges (kindOf env) (sameB ch.members.cm) q (c :: cs)
            = statusChanges (kindOf env) (sameB ch.members.cm) q cs := by
          simp [statusChanges, hk, ha, sameB, hs]
        rw [hsc]
    · have hmem : (applyChange env ch c).members = ch.members := by
        unfold applyChange
        split
        · split
          · rename_i h1 h2 _ ms h3
            exact absurd ⟨_, _, h1, h2, h3⟩ hm
          · rfl
        all_goals first | rfl | (split <;> rfl)
      obtain ⟨ih1, ih2, ih3⟩ := ih (applyChange env ch c)
      rw [hmem] at ih1 ih2 ih3
      refine ⟨ih1, ih2, ?_⟩
      intro p hp
      rw [ih3 p hp]
      have hsc : statusChanges (kindOf env) (sameB ch.members.cm) q (c :: cs)
          = statusChanges (kindOf env) (sameB ch.members.cm) q cs := by
        unfold statusChanges
        rw [List.filterMap_cons]
        split
        · rfl
        · rename_i x hx
          exfalso
          split at hx
          · rename_i a hk ha
            apply hm
            have : findMembership env c.letter ≠ none := kind_membership hk
            obtain ⟨ms, hms⟩ := Option.ne_none_iff_exists'.1 this
            exact ⟨a, ms, hk, ha, hms⟩
          · simp at hx
      rw [hsc]

/-! ## Prefix strings -/

theorem parsePrefix_format (avail ms : List Membership) (nick : Str)
    (hnd : (avail.map (·.pfx)).Nodup) (hsub : ms.Sublist avail)
    (hnick : ∀ c, nick.head? = some c → c ∉ avail.map (·.pfx)) :
    parseMembershipPrefix avail (ms.map (·.pfx) ++ nick) = (ms, nick) := by
  induction hsub with
  | slnil => simp [parseMembershipPrefix]
  | @cons l₁ l₂ a hs ih =>
    simp only [List.map_cons, List.nodup_cons] at hnd
    have hnick' : ∀ c, nick.head? = some c → c ∉ l₂.map (·.pfx) := by
      intro c hc hm
      exact hnick c hc (by simp only [List.map_cons, List.mem_cons]; exact .inr hm)
    have IH := ih hnd.2 hnick'
    cases h : l₁.map (·.pfx) ++ nick with
    | nil =>
      simp only [List.append_eq_nil_iff, List.map_eq_nil_iff] at h
      obtain ⟨rfl, rfl⟩ := h
      simp [parseMembershipPrefix]
    | cons c t =>
      simp only [parseMembershipPrefix]
      have hne : c ≠ a.pfx := by
        rintro rfl
        cases l₁ with
        | nil =>
          simp only [List.map_nil, List.nil_append] at h
          rw [h] at hnick
          exact hnick a.pfx rfl (by simp)
        | cons b l =>
          simp only [List.map_cons, List.cons_append, List.cons.injEq] at h
          apply hnd.1
          rw [← h.1]
          exact List.mem_map_of_mem (f := (·.pfx)) (hs.subset (List.mem_cons_self ..))
      rw [if_neg hne, ← h, IH]
  | @cons_cons l₁ l₂ a hs ih =>
    simp only [List.map_cons, List.nodup_cons] at hnd
    have hnick' : ∀ c, nick.head? = some c → c ∉ l₂.map (·.pfx) := by
      intro c hc hm
      exact hnick c hc (by simp only [List.map_cons, List.mem_cons]; exact .inr hm)
    simp [parseMembershipPrefix, ih hnd.2 hnick']

end Verif.Proof
