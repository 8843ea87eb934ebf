import Verif.Spec.UserCache
import Verif.Proof.GoMap
import Verif.Proof.Util

/-! # Lemmas on the cache of user information -/

namespace Verif.Proof
open Verif.Model Verif.Spec

/-- The nick `cacheUserInfo` files the information under. -/
def newNickOf (n : Str) (info : UUser) : Str := if info.nick = [] then n else info.nick

theorem cache_shape {e : UcEnv} {st st' : UcState} {n : Str} {info : UUser}
    (h : cacheUser e st n info = some st') :
    st'.nick = st.nick ∧ st'.chans = st.chans ∧ st'.monitored = st.monitored := by
  unfold cacheUser at h
  grind

theorem cache_get {e : UcEnv} {st st' : UcState} {n : Str} {info : UUser}
    (hn : ∀ u, GoMap.get st.users (casemap e.cm n) = some u → casemap e.cm u.nick = casemap e.cm n)
    (h : cacheUser e st n info = some st') (k : Str) :
    GoMap.get st'.users k =
      if casemap e.cm (newNickOf n info) = k then
        some (updateFrom ((GoMap.get st.users (casemap e.cm n)).getD { nick := n }) info)
      else if casemap e.cm n = k then none else GoMap.get st.users k := by
  unfold cacheUser at h
  split at h
  · cases h
  · rename_i hne
    split at h
    · rename_i hg
      simp only [Option.some.injEq] at h
      subst h
      rw [hg]
      simp only [mget_mset, Option.getD_none]
      by_cases hi : info.nick = []
      · simp only [hi, newNickOf, ne_eq, not_true_eq_false, if_false, if_true]
        by_cases hk : casemap e.cm n = k
        · simp only [hk, if_true, updateFrom, orOld, hi]
          cases info; grind
        · simp only [hk, if_false]
      · simp only [hi, newNickOf, ne_eq, not_false_eq_true, if_false, if_true]
        by_cases hk : casemap e.cm info.nick = k
        · simp only [hk, if_true, updateFrom, orOld]
          cases info; grind
        · simp only [hk, if_false]
          split
          · rename_i h2; rw [← h2, hg]
          · rfl
    · rename_i u hg
      rw [hg]
      dsimp only at h
      split at h
      · rename_i hc
        simp only [Option.some.injEq] at h
        subst h
        have hu : (updateFrom u info).nick = info.nick := by simp [updateFrom, orOld, hc.1]
        simp only [mget_mset, mget_mdel, Option.getD_some, newNickOf, hc.1, if_false, hu]
      · rename_i hc
        simp only [Option.some.injEq] at h
        subst h
        have hnn : newNickOf n info = n := by unfold newNickOf; grind
        rw [hnn]
        simp only [mget_mset, Option.getD_some]
        split <;> simp_all

theorem dropUnseen_get {e : UcEnv} {st : UcState} {k k' : Str} {u : UUser}
    (h : GoMap.get (dropUnseen e st k).users k' = some u) : GoMap.get st.users k' = some u := by
  unfold dropUnseen at h
  split at h
  · exact h
  · simp only [mget_mdel] at h
    split at h
    · cases h
    · exact h

theorem dropUnseen_rest (e : UcEnv) (st : UcState) (k : Str) :
    (dropUnseen e st k).nick = st.nick ∧ (dropUnseen e st k).chans = st.chans ∧
      (dropUnseen e st k).monitored = st.monitored := by
  unfold dropUnseen; split <;> simp

theorem dropAll_get {e : UcEnv} {ks : List Str} {st : UcState} {k' : Str} {u : UUser}
    (h : GoMap.get (ks.foldl (dropUnseen e) st).users k' = some u) :
    GoMap.get st.users k' = some u := by
  induction ks generalizing st with
  | nil => exact h
  | cons k ks ih => exact dropUnseen_get (ih h)

theorem dropAll_rest (e : UcEnv) (ks : List Str) (st : UcState) :
    (ks.foldl (dropUnseen e) st).nick = st.nick ∧ (ks.foldl (dropUnseen e) st).chans = st.chans ∧
      (ks.foldl (dropUnseen e) st).monitored = st.monitored := by
  induction ks generalizing st with
  | nil => simp
  | cons k ks ih =>
    have h1 := ih (dropUnseen e st k)
    have h2 := dropUnseen_rest e st k
    simp only [List.foldl_cons]
    exact ⟨h1.1.trans h2.1, h1.2.1.trans h2.2.1, h1.2.2.trans h2.2.2⟩

theorem joinLoop_users (e : UcEnv) (src : Str) (cs : List Str) (st : UcState) :
    (ucJoinLoop e st src cs).users = st.users := by
  induction cs generalizing st with
  | nil => rfl
  | cons c cs ih =>
    simp only [ucJoinLoop]
    split
    · rw [ih]
    · split
      · rfl
      · rw [ih]

theorem leave_get {e : UcEnv} {st : UcState} {c k : Str} {u : UUser}
    (h : GoMap.get (ucLeave e st c).users k = some u) : GoMap.get st.users k = some u := by
  unfold ucLeave at h
  split at h
  · exact h
  · have h2 := dropAll_get h
    exact h2

theorem gone_get {e : UcEnv} {st st' : UcState} {c n k : Str} {u : UUser}
    (hg : ucGone e st c n = some st') (h : GoMap.get st'.users k = some u) :
    GoMap.get st.users k = some u := by
  unfold ucGone at hg
  split at hg
  · cases hg
  · simp only [Option.some.injEq] at hg
    subst hg
    have h2 := dropUnseen_get h
    exact h2

theorem partLoop_get {e : UcEnv} {src k : Str} {u : UUser} (cs : List Str) {st : UcState}
    (h : GoMap.get (ucPartLoop e st src cs).users k = some u) : GoMap.get st.users k = some u := by
  induction cs generalizing st with
  | nil => exact h
  | cons c cs ih =>
    simp only [ucPartLoop] at h
    split at h
    · exact leave_get (ih h)
    · split at h
      · exact h
      · rename_i hg; exact gone_get hg (ih h)

theorem unmonitor_get {e : UcEnv} {k : Str} {u : UUser} (ns : List Str) {st : UcState}
    (h : GoMap.get (ns.foldl (unmonitorOne e) st).users k = some u) :
    GoMap.get st.users k = some u := by
  induction ns generalizing st with
  | nil => exact h
  | cons n ns ih =>
    have h1 := ih (st := unmonitorOne e st n) h
    have h2 := dropUnseen_get h1
    exact h2

/-- The cache says nothing the server did not say last. -/
def CacheOK (e : UcEnv) (st : UcState) (hist : List UcOp) : Prop :=
  ∀ k u, GoMap.get st.users k = some u →
    casemap e.cm u.nick = k ∧ ∀ f, u.get f ≠ [] → u.get f = lastKnown e f hist k

theorem getUpd (u i : UUser) (f : WhoField) : (updateFrom u i).get f = orOld (i.get f) (u.get f) := by
  cases f <;> rfl

theorem cacheOK_sub {e : UcEnv} {st st' : UcState} {hist hist' : List UcOp} (h : CacheOK e st hist)
    (hs : ∀ k u, GoMap.get st'.users k = some u → GoMap.get st.users k = some u)
    (hl : ∀ k u f, GoMap.get st'.users k = some u → lastKnown e f hist' k = lastKnown e f hist k) :
    CacheOK e st' hist' := by
  intro k u hg
  have h1 := h k u (hs k u hg)
  exact ⟨h1.1, fun f hf => by rw [hl k u f hg]; exact h1.2 f hf⟩

/-- Filing information under the same nick. -/
theorem cacheOK_cache {e : UcEnv} {st st' : UcState} {n : Str} {info : UUser} {hist : List UcOp}
    {op : UcOp} (h : CacheOK e st hist) (hn : info.nick = [] ∨ info.nick = n)
    (hc : cacheUser e st n info = some st')
    (hother : ∀ f k, k ≠ casemap e.cm n → lastKnown e f (op :: hist) k = lastKnown e f hist k)
    (hnew : ∀ f, info.get f ≠ [] → lastKnown e f (op :: hist) (casemap e.cm n) = info.get f)
    (hold : ∀ f, info.get f = [] → lastKnown e f (op :: hist) (casemap e.cm n) =
      lastKnown e f hist (casemap e.cm n)) :
    CacheOK e st' (op :: hist) := by
  intro k u hg
  have hnn : newNickOf n info = n := by unfold newNickOf; grind
  rw [cache_get (fun u hu => (h _ u hu).1) hc, hnn] at hg
  by_cases hk : casemap e.cm n = k
  · rw [if_pos hk] at hg
    simp only [Option.some.injEq] at hg
    subst hk
    have hfold : casemap e.cm ((GoMap.get st.users (casemap e.cm n)).getD { nick := n }).nick
        = casemap e.cm n := by
      cases hu : GoMap.get st.users (casemap e.cm n) with
      | none => rfl
      | some v => exact (h _ v hu).1
    subst hg
    refine ⟨?_, ?_⟩
    · rcases hn with hn | hn
      · simp [updateFrom, orOld, hn, hfold]
      · simp only [updateFrom, orOld, hn]; split
        · rfl
        · exact hfold
    · intro f hf
      rw [getUpd] at hf ⊢
      unfold orOld at hf ⊢
      split
      · rename_i hi; exact (hnew f hi).symm
      · rename_i hi
        rw [if_neg hi] at hf
        rw [hold f (Classical.not_not.1 hi)]
        cases hu : GoMap.get st.users (casemap e.cm n) with
        | none => rw [hu] at hf; cases f <;> exact absurd rfl hf
        | some v => rw [hu] at hf; exact (h _ v hu).2 f hf
  · rw [if_neg hk, if_neg hk] at hg
    have := h k u hg
    exact ⟨this.1, fun f hf => by rw [hother f k (Ne.symm hk)]; exact this.2 f hf⟩

theorem cacheOK_nick {e : UcEnv} {st st' : UcState} {a b : Str} {hist : List UcOp}
    (h : CacheOK e st hist) (hb : b ≠ []) (hc : ucNick e st a b = some st') :
    CacheOK e st' (.nick a b :: hist) := by
  unfold ucNick at hc
  dsimp only at hc
  generalize hst2 : ({ (if ucOurs e st a = true then { st with nick := b } else st) with
    chans := _ } : UcState) = st2 at hc
  have hus : st2.users = st.users := by rw [← hst2]; dsimp only; split <;> rfl
  intro k u hg
  have hn : ∀ u, GoMap.get st2.users (casemap e.cm a) = some u →
      casemap e.cm u.nick = casemap e.cm a := by
    intro u hu; rw [hus] at hu; exact (h _ u hu).1
  rw [cache_get hn hc, hus] at hg
  have hnn : newNickOf a { nick := b } = b := by simp [newNickOf, hb]
  rw [hnn] at hg
  simp only [lastKnown]
  split at hg
  · rename_i hk
    simp only [if_pos hk]
    simp only [Option.some.injEq] at hg
    subst hg
    refine ⟨by simp [updateFrom, orOld, hb, hk], ?_⟩
    intro f hf
    rw [getUpd] at hf ⊢
    have he : UUser.get { nick := b } f = [] := by cases f <;> rfl
    simp only [orOld, he, ne_eq, not_true_eq_false, if_false] at hf ⊢
    cases hu : GoMap.get st.users (casemap e.cm a) with
    | none => rw [hu] at hf; cases f <;> exact absurd rfl hf
    | some v => rw [hu] at hf; exact (h _ v hu).2 f hf
  · rename_i hk
    split at hg
    · cases hg
    · rename_i hk2
      simp only [if_neg hk, if_neg hk2]
      exact h k u hg

theorem awayFlags_says (b : Bool) (s : Str) : awayFlags b s = saysAway b s := by
  unfold awayFlags saysAway
  apply List.map_congr_left
  intro c _
  have hm : c ∈ b!"HG" ↔ c = 72 ∨ c = 71 := by
    show c ∈ [72, 71] ↔ _
    simp
  simp only [hm]
  by_cases h1 : c = 72
  · subst h1; cases b <;> simp
  · by_cases h2 : c = 71
    · subst h2; cases b <;> simp
    · cases b <;> simp [h1, h2]

theorem awayFlags_eq_nil (b : Bool) (s : Str) : awayFlags b s = [] ↔ s = [] := by
  simp [awayFlags]

theorem cacheOK_step {e : UcEnv} {st st' : UcState} {op : UcOp} {hist : List UcOp}
    (h : CacheOK e st hist)
    (hv : ∀ k u, GoMap.get st.users k = some u → shouldCache e st k = true)
    (ht : Tame op) (hs : ucStep e st op = some st') :
    CacheOK e st' (op :: hist) := by
  cases op with
  | nick a b => exact cacheOK_nick h ht hs
  | setname a r =>
    simp only [Tame] at ht
    refine cacheOK_cache h (.inl rfl) hs ?_ ?_ ?_
    · intro f k hk; simp [lastKnown, reported, Ne.symm hk]
    · intro f hf; cases f <;> simp_all [lastKnown, reported, UUser.get]
    · intro f hf; cases f <;> simp_all [lastKnown, reported, UUser.get]
  | account a r =>
    simp only [Tame] at ht
    refine cacheOK_cache h (.inl rfl) hs ?_ ?_ ?_
    · intro f k hk; simp [lastKnown, reported, Ne.symm hk]
    · intro f hf; cases f <;> simp_all [lastKnown, reported, UUser.get]
    · intro f hf; cases f <;> simp_all [lastKnown, reported, UUser.get]
  | chghost => exact absurd ht (by simp [Tame])
  | join a us ho bot ext cs =>
    simp only [Tame] at ht
    simp only [ucStep] at hs
    split at hs
    · cases hs
    · rename_i st1 hc
      simp only [Option.some.injEq] at hs
      subst hs
      have : CacheOK e st1 (.join a us ho bot ext cs :: hist) := by
        refine cacheOK_cache h (.inl rfl) hc ?_ ?_ ?_
        · intro f k hk; simp [lastKnown, reported, Ne.symm hk]
        · intro f hf
          cases f <;> simp only [UUser.get, joinInfo] at hf <;>
            simp only [lastKnown, reported, if_true]
          · simp [hf]; rfl
          · simp [hf]; rfl
          · exact absurd rfl hf
          · split at hf
            · rename_i ha; simp [ha, joinInfo, UUser.get]
            · exact absurd rfl hf
          · cases ext with
            | none => exact absurd rfl hf
            | some p => rfl
          · cases ext with
            | none => exact absurd rfl hf
            | some p => rfl
        · intro f hf
          cases f <;> simp only [UUser.get, joinInfo] at hf <;>
            simp only [lastKnown, reported, if_true]
          · simp [hf]
          · simp [hf]
          · rfl
          · split at hf
            · simp at hf
            · rename_i ha; simp [ha]
          · cases ext with
            | none => rfl
            | some p => exact absurd hf (ht p.1 p.2 rfl).1
          · cases ext with
            | none => rfl
            | some p => exact absurd hf (ht p.1 p.2 rfl).2
      refine cacheOK_sub this (fun k u hg => ?_) (fun _ _ _ _ => rfl)
      rw [joinLoop_users] at hg; exact hg
  | part a cs =>
    simp only [ucStep, Option.some.injEq] at hs
    subst hs
    exact cacheOK_sub h (fun k u hg => partLoop_get cs hg)
      (fun k u f hg => by simp [lastKnown, reported])
  | kick c n =>
    simp only [ucStep] at hs
    refine cacheOK_sub h ?_ (fun k u f hg => by simp [lastKnown, reported])
    intro k u hg
    split at hs
    · simp only [Option.some.injEq] at hs; subst hs; exact leave_get hg
    · simp only [Option.some.injEq] at hs; subst hs
      cases hgo : ucGone e st c n with
      | none => rw [hgo] at hg; exact hg
      | some st' => rw [hgo] at hg; exact gone_get hgo hg
  | quit a =>
    simp only [ucStep, Option.some.injEq] at hs
    subst hs
    have hk : ∀ k u, GoMap.get (ucQuit e st a).users k = some u →
        casemap e.cm a ≠ k ∧ GoMap.get st.users k = some u := by
      intro k u hg
      simp only [ucQuit, mget_mdel] at hg
      split at hg
      · cases hg
      · rename_i hk; exact ⟨hk, hg⟩
    refine cacheOK_sub h (fun k u hg => (hk k u hg).2) ?_
    intro k u f hg
    simp [lastKnown, (hk k u hg).1]
  | names c ns =>
    simp only [ucStep] at hs
    refine cacheOK_sub h ?_ (fun k u f hg => by simp [lastKnown, reported])
    intro k u hg
    split at hs <;> (simp only [Option.some.injEq] at hs; subst hs; exact hg)
  | who info =>
    simp only [ucStep] at hs
    split at hs
    · refine cacheOK_cache h (.inr rfl) hs ?_ ?_ ?_
      · intro f k hk; simp [lastKnown, reported, Ne.symm hk]
      · intro f hf; simp [lastKnown, reported, hf]
      · intro f hf; simp [lastKnown, reported, hf]
    · rename_i hsc
      simp only [Option.some.injEq] at hs
      subst hs
      refine cacheOK_sub h (fun k u hg => hg) ?_
      intro k u f hg
      have : casemap e.cm info.nick ≠ k := by rintro rfl; exact hsc (hv _ u hg)
      simp [lastKnown, reported, this]
  | monitor ns on =>
    simp only [Tame] at ht
    subst ht
    simp only [ucStep, Option.some.injEq] at hs
    subst hs
    exact cacheOK_sub h (fun k u hg => hg) (fun k u f hg => by simp [lastKnown, reported])
  | away a b =>
    simp only [ucStep] at hs
    split at hs
    · rename_i hu
      simp only [Option.some.injEq] at hs
      subst hs
      refine cacheOK_sub h (fun k u hg => hg) ?_
      intro k u f hg
      have : casemap e.cm a ≠ k := by rintro rfl; rw [hu] at hg; cases hg
      simp [lastKnown, this]
    · rename_i u hu
      split at hs
      · rename_i hf
        have hlk := (h _ u hu).2 .flags hf
        refine cacheOK_cache h (.inl rfl) hs ?_ ?_ ?_
        · intro f k hk; simp [lastKnown, Ne.symm hk]
        · intro f hf2
          cases f <;> simp only [UUser.get] at hf2 <;> try exact absurd rfl hf2
          simp only [UUser.get] at hlk
          simp [lastKnown, UUser.get, hlk, awayFlags_says]
        · intro f hf2
          cases f <;> simp [lastKnown]
          simp only [UUser.get, awayFlags_eq_nil] at hf2
          exact absurd hf2 hf
      · rename_i hf
        simp only [Option.some.injEq] at hs
        subst hs
        intro k v hg
        refine ⟨(h k v hg).1, ?_⟩
        intro f hf2
        simp only [lastKnown]
        split
        · rename_i hc
          obtain ⟨rfl, rfl⟩ := hc
          rw [hu] at hg
          cases hg
          exact absurd hf2 hf
        · exact (h k v hg).2 f hf2
  | unmonitor ns =>
    simp only [ucStep, Option.some.injEq] at hs
    subst hs
    exact cacheOK_sub h (fun k u hg => unmonitor_get ns hg)
      (fun k u f hg => by simp [lastKnown, reported])

/-! ## Only visible users are cached -/

theorem shouldCache_iff {e : UcEnv} {st : UcState} {k : Str} :
    shouldCache e st k = true ↔ VisibleUser e st k := by
  unfold shouldCache VisibleUser
  split
  · simp_all
  · split
    · simp_all
    · rename_i h1 h2
      simp only [h1, h2, false_or, List.any_eq_true, decide_eq_true_eq]
      constructor
      · rintro ⟨p, hp, hk⟩; exact ⟨p.1, p.2, hp, hk⟩
      · rintro ⟨c, ms, hp, hk⟩; exact ⟨(c, ms), hp, hk⟩

/-- Every cached user is visible. -/
def CacheSeen (e : UcEnv) (st : UcState) : Prop :=
  ∀ k u, GoMap.get st.users k = some u → VisibleUser e st k

/-- Every cached user is visible, save possibly `ks`. -/
def CacheSeenBut (e : UcEnv) (st : UcState) (ks : List Str) : Prop :=
  ∀ k u, GoMap.get st.users k = some u → VisibleUser e st k ∨ k ∈ ks

theorem visible_congr {e : UcEnv} {st st' : UcState} {k : Str} (h1 : st'.nick = st.nick)
    (h2 : st'.chans = st.chans) (h3 : st'.monitored = st.monitored) :
    VisibleUser e st' k ↔ VisibleUser e st k := by
  unfold VisibleUser; rw [h1, h2, h3]

theorem seen_drop {e : UcEnv} {ks : List Str} {st : UcState} {k : Str}
    (h : CacheSeenBut e st (k :: ks)) : CacheSeenBut e (dropUnseen e st k) ks := by
  intro k' u hg
  have hr := dropUnseen_rest e st k
  rw [visible_congr hr.1 hr.2.1 hr.2.2]
  unfold dropUnseen at hg
  split at hg
  · rename_i hc
    rcases h k' u hg with h' | h'
    · exact .inl h'
    · rcases List.mem_cons.1 h' with rfl | h'
      · exact .inl (shouldCache_iff.1 hc)
      · exact .inr h'
  · simp only [mget_mdel] at hg
    split at hg
    · cases hg
    · rename_i hne
      rcases h k' u hg with h' | h'
      · exact .inl h'
      · rcases List.mem_cons.1 h' with rfl | h'
        · exact absurd rfl hne
        · exact .inr h'

theorem seen_dropAll {e : UcEnv} (ks : List Str) {st : UcState}
    (h : CacheSeenBut e st ks) : CacheSeen e (ks.foldl (dropUnseen e) st) := by
  induction ks generalizing st with
  | nil => intro k u hg; exact (h k u hg).resolve_right List.not_mem_nil
  | cons k ks ih => exact ih (seen_drop h)

theorem mem_mset_of_mem {K V : Type} [DecidableEq K] {m : GoMap K V} {k : K} {v : V} {p : K × V}
    (h : p ∈ m) : p ∈ GoMap.set m k v ∨ (p.1 = k ∧ GoMap.get m k = some p.2) := by
  induction m with
  | nil => cases h
  | cons q m ih =>
    obtain ⟨k', v'⟩ := q
    simp only [GoMap.set, GoMap.get]
    rcases List.mem_cons.1 h with rfl | h
    · split
      · rename_i hk; exact .inr ⟨hk, rfl⟩
      · exact .inl (by simp)
    · split
      · exact .inl (by simp [h])
      · rcases ih h with ih | ih
        · exact .inl (by simp [ih])
        · exact .inr ih

theorem mem_mset_self {K V : Type} [DecidableEq K] (m : GoMap K V) (k : K) (v : V) :
    (k, v) ∈ GoMap.set m k v := by
  have := mget_mset m k k v
  rw [if_pos rfl] at this
  exact mget_some_mem this

/-- Replacing the members of a channel: those of the old members still in it stay visible. -/
theorem visible_set {e : UcEnv} {st : UcState} {c k : Str} {ms ms' : List Str}
    (hg : GoMap.get st.chans c = some ms) (hk : k ∈ ms → k ∈ ms')
    (h : VisibleUser e st k) : VisibleUser e { st with chans := GoMap.set st.chans c ms' } k := by
  rcases h with h | h | ⟨c', m', hm, hkm⟩
  · exact .inl h
  · exact .inr (.inl h)
  · refine .inr (.inr ?_)
    rcases mem_mset_of_mem (k := c) (v := ms') hm with h' | ⟨_, h'⟩
    · exact ⟨c', m', h', hkm⟩
    · rw [hg] at h'; cases h'
      exact ⟨c, ms', mem_mset_self _ _ _, hk hkm⟩

theorem mem_addMembers {e : UcEnv} {ns ms : List Str} {k : Str} :
    k ∈ addMembers e ms ns ↔ k ∈ ms ∨ k ∈ ns.map (casemap e.cm) := by
  unfold addMembers
  induction ns generalizing ms with
  | nil => simp
  | cons n ns ih =>
    simp only [List.foldl_cons, ih, List.map_cons, List.mem_cons]
    split <;> grind

/-- The keys of the channel map are not repeated. -/
def ChansOK (st : UcState) : Prop := (st.chans.map (·.1)).Nodup

theorem seen_leave {e : UcEnv} {st : UcState} {c : Str} (h : CacheSeen e st) (hn : ChansOK st) :
    CacheSeen e (ucLeave e st c) := by
  unfold ucLeave
  split
  · exact h
  · rename_i ms hg
    refine seen_dropAll ms ?_
    intro k u hu
    rcases h k u hu with h' | h' | ⟨c', m', hm, hkm⟩
    · exact .inl (.inl h')
    · exact .inl (.inr (.inl h'))
    · by_cases hc : c' = casemap e.cm c
      · subst hc
        rw [mget_of_mem hn hm] at hg
        cases hg
        exact .inr hkm
      · refine .inl (.inr (.inr ⟨c', m', ?_, hkm⟩))
        simp [GoMap.del, hm, hc]

theorem chans_leave {e : UcEnv} {st : UcState} {c : Str} (hn : ChansOK st) :
    ChansOK (ucLeave e st c) := by
  unfold ucLeave
  split
  · exact hn
  · unfold ChansOK
    rw [(dropAll_rest e _ _).2.1]
    exact mdel_nodup hn _

theorem seen_gone {e : UcEnv} {st st' : UcState} {c n : Str} (h : CacheSeen e st)
    (hg : ucGone e st c n = some st') : CacheSeen e st' := by
  unfold ucGone at hg
  split at hg
  · cases hg
  · rename_i ms hms
    simp only [Option.some.injEq] at hg
    subst hg
    refine seen_dropAll [casemap e.cm n] ?_
    intro k u hu
    by_cases hk : k = casemap e.cm n
    · exact .inr (by simp [hk])
    · exact .inl (visible_set hms (fun h => by simp [h, hk]) (h k u hu))

theorem chans_gone {e : UcEnv} {st st' : UcState} {c n : Str} (hn : ChansOK st)
    (hg : ucGone e st c n = some st') : ChansOK st' := by
  unfold ucGone at hg
  split at hg
  · cases hg
  · simp only [Option.some.injEq] at hg
    subst hg
    unfold ChansOK
    rw [(dropUnseen_rest e _ _).2.1]
    exact mset_nodup hn _ _

theorem seen_partLoop {e : UcEnv} {src : Str} (cs : List Str) {st : UcState} (h : CacheSeen e st)
    (hn : ChansOK st) :
    CacheSeen e (ucPartLoop e st src cs) ∧ ChansOK (ucPartLoop e st src cs) := by
  induction cs generalizing st with
  | nil => exact ⟨h, hn⟩
  | cons c cs ih =>
    simp only [ucPartLoop]
    split
    · exact ih (seen_leave h hn) (chans_leave hn)
    · split
      · exact ⟨h, hn⟩
      · rename_i hg
        exact ih (seen_gone h hg) (chans_gone hn hg)

theorem seen_unmonitor {e : UcEnv} (ns : List Str) {st : UcState} (h : CacheSeen e st)
    (hn : ChansOK st) :
    CacheSeen e (ns.foldl (unmonitorOne e) st) ∧ ChansOK (ns.foldl (unmonitorOne e) st) := by
  induction ns generalizing st with
  | nil => exact ⟨h, hn⟩
  | cons n ns ih =>
    refine ih (st := unmonitorOne e st n) ?_ ?_
    · refine seen_dropAll [casemap e.cm n] ?_
      intro k u hu
      by_cases hk : k = casemap e.cm n
      · exact .inr (by simp [hk])
      · rcases h k u hu with h' | h' | h'
        · exact .inl (.inl h')
        · exact .inl (.inr (.inl (by simp [h', hk])))
        · exact .inl (.inr (.inr h'))
    · unfold ChansOK unmonitorOne
      rw [(dropUnseen_rest e _ _).2.1]
      exact hn

/-- Joining channels keeps the users seen, if we do not join one we are on already; someone else who
joined at least one is seen. -/
theorem seen_joinLoop {e : UcEnv} {src : Str} (cs : List Str) {st : UcState} (hn : ChansOK st)
    (hp : if ucOurs e st src then ∀ c ∈ cs, ∀ ms, GoMap.get st.chans (casemap e.cm c) = some ms → ms = []
      else ∀ c ∈ cs, GoMap.get st.chans (casemap e.cm c) ≠ none) :
    ChansOK (ucJoinLoop e st src cs) ∧
    (∀ k, VisibleUser e st k → VisibleUser e (ucJoinLoop e st src cs) k) ∧
    (ucOurs e st src ∨ cs ≠ [] → VisibleUser e (ucJoinLoop e st src cs) (casemap e.cm src)) := by
  induction cs generalizing st with
  | nil =>
    refine ⟨hn, fun k h => h, ?_⟩
    rintro (h | h)
    · simp only [ucOurs, decide_eq_true_eq] at h
      exact .inl h
    · exact absurd rfl h
  | cons c cs ih =>
    simp only [ucJoinLoop]
    split
    · rename_i ho
      rw [if_pos ho] at hp
      have ho' : ucOurs e { st with chans := GoMap.set st.chans (casemap e.cm c) [] } src = true := ho
      have := ih (st := { st with chans := GoMap.set st.chans (casemap e.cm c) [] })
        (mset_nodup hn _ _) (by
          rw [if_pos ho']
          intro c' hc' ms hms
          simp only [mget_mset] at hms
          split at hms
          · simp_all
          · exact hp c' (List.mem_cons_of_mem _ hc') ms hms)
      refine ⟨this.1, fun k hk => this.2.1 k ?_, fun _ => this.2.2 (.inl ho')⟩
      cases hg : GoMap.get st.chans (casemap e.cm c) with
      | some ms =>
        refine visible_set hg (fun hm => ?_) hk
        rw [hp c List.mem_cons_self ms hg] at hm
        exact hm
      | none =>
        rcases hk with h | h | ⟨c', m', hm, hkm⟩
        · exact .inl h
        · exact .inr (.inl h)
        · refine .inr (.inr ⟨c', m', ?_, hkm⟩)
          rcases mem_mset_of_mem (k := casemap e.cm c) (v := []) hm with h' | ⟨_, h'⟩
          · exact h'
          · rw [hg] at h'; cases h'
    · rename_i ho
      rw [if_neg ho] at hp
      split
      · rename_i hg
        exact absurd hg (hp c List.mem_cons_self)
      · rename_i ms hg
        generalize hms' : addMembers e ms [src] = ms'
        have ho' : ¬ ucOurs e { st with chans := GoMap.set st.chans (casemap e.cm c) ms' } src = true :=
          ho
        have := ih (st := { st with chans := GoMap.set st.chans (casemap e.cm c) ms' })
          (mset_nodup hn _ _) (by
          rw [if_neg ho']
          intro c' hc'
          simp only [mget_mset]
          split
          · simp
          · exact hp c' (List.mem_cons_of_mem _ hc'))
        refine ⟨this.1, fun k hk => this.2.1 k ?_, fun _ => this.2.1 _ ?_⟩
        · exact visible_set hg (fun hm => hms' ▸ mem_addMembers.2 (.inl hm)) hk
        · exact .inr (.inr ⟨_, _, mem_mset_self _ _ _,
            hms' ▸ mem_addMembers.2 (.inr (by simp))⟩)

/-- Filing information under a visible nick. -/
theorem seen_cache {e : UcEnv} {st st' : UcState} {n : Str} {info : UUser} (h : CacheSeen e st)
    (hk : ∀ u, GoMap.get st.users (casemap e.cm n) = some u → casemap e.cm u.nick = casemap e.cm n)
    (hc : cacheUser e st n info = some st')
    (hv : VisibleUser e st (casemap e.cm (newNickOf n info))) : CacheSeen e st' := by
  intro k u hu
  have hs := cache_shape hc
  rw [visible_congr hs.1 hs.2.1 hs.2.2]
  rw [cache_get hk hc] at hu
  split at hu
  · rename_i hk; rw [← hk]; exact hv
  · split at hu
    · cases hu
    · exact h k u hu

theorem chans_cache {e : UcEnv} {st st' : UcState} {n : Str} {info : UUser} (hn : ChansOK st)
    (hc : cacheUser e st n info = some st') : ChansOK st' := by
  unfold ChansOK; rw [(cache_shape hc).2.1]; exact hn

theorem seen_step {e : UcEnv} {st st' : UcState} {op : UcOp} (h : CacheSeen e st) (hn : ChansOK st)
    (hk : ∀ k u, GoMap.get st.users k = some u → casemap e.cm u.nick = k)
    (ht : ∀ a b, op = .nick a b → b ≠ []) (hp : Proper e st op) (hs : ucStep e st op = some st') :
    CacheSeen e st' ∧ ChansOK st' := by
  cases op with
  | nick a b =>
    have ht := ht a b rfl
    simp only [ucStep, ucNick] at hs
    simp only [Proper] at hp
    generalize hst2 : ({ (if ucOurs e st a = true then { st with nick := b } else st) with
      chans := _ } : UcState) = st2 at hs
    have hus : st2.users = st.users := by rw [← hst2]; dsimp only; split <;> rfl
    have hmon : st2.monitored = st.monitored := by rw [← hst2]; dsimp only; split <;> rfl
    have hnick : st2.nick = if ucOurs e st a = true then b else st.nick := by
      rw [← hst2]; dsimp only; split <;> rfl
    have hch : st2.chans = st.chans.map (fun p => (p.1,
        if casemap e.cm a ∈ p.2 then p.2.filter (· ≠ casemap e.cm a) ++ [casemap e.cm b] else p.2)) := by
      rw [← hst2]; dsimp only; split <;> rfl
    have hn2 : ChansOK st2 := by
      unfold ChansOK; rw [hch, List.map_map]; exact hn
    refine ⟨?_, chans_cache hn2 hs⟩
    have hmem : ∀ c ms, (c, ms) ∈ st.chans → (c, if casemap e.cm a ∈ ms then
        ms.filter (· ≠ casemap e.cm a) ++ [casemap e.cm b] else ms) ∈ st2.chans := by
      intro c ms hm
      rw [hch]
      exact List.mem_map_of_mem (f := fun p : Str × List Str => (p.1,
        if casemap e.cm a ∈ p.2 then p.2.filter (· ≠ casemap e.cm a) ++ [casemap e.cm b] else p.2)) hm
    have hvb : VisibleUser e st2 (casemap e.cm b) := by
      rcases hp with hp | ⟨c, ms, hm, hka⟩
      · refine .inl ?_
        rw [hnick, if_pos (by simp [ucOurs, hp])]
      · refine .inr (.inr ⟨c, _, hmem c ms hm, ?_⟩)
        rw [if_pos hka]; simp
    intro k u hu
    have hsh := cache_shape hs
    rw [visible_congr hsh.1 hsh.2.1 hsh.2.2]
    rw [cache_get (fun u hu => hk _ u (by rw [← hus]; exact hu)) hs, hus] at hu
    have hnn : newNickOf a { nick := b } = b := by simp [newNickOf, ht]
    rw [hnn] at hu
    split at hu
    · rename_i hkb; rw [← hkb]; exact hvb
    · split at hu
      · cases hu
      · rename_i hka
        rcases h k u hu with h' | h' | ⟨c, ms, hm, hkm⟩
        · have : ¬ ucOurs e st a = true := by
            simp only [ucOurs, decide_eq_true_eq]
            intro he; exact hka (he.symm.trans h')
          refine .inl ?_
          rw [hnick, if_neg this]; exact h'
        · exact .inr (.inl (by rw [hmon]; exact h'))
        · refine .inr (.inr ⟨c, _, hmem c ms hm, ?_⟩)
          split
          · simp [hkm, Ne.symm hka]
          · exact hkm
  | setname a r => exact ⟨seen_cache h (hk _) hs hp, chans_cache hn hs⟩
  | account a r => exact ⟨seen_cache h (hk _) hs hp, chans_cache hn hs⟩
  | chghost => cases hs; exact ⟨h, hn⟩
  | join a us ho bot ext cs =>
    simp only [ucStep] at hs
    split at hs
    · cases hs
    · rename_i st1 hc
      simp only [Option.some.injEq] at hs
      subst hs
      have hsh := cache_shape hc
      have hours : ucOurs e st1 a = ucOurs e st a := by unfold ucOurs; rw [hsh.1]
      simp only [Proper] at hp
      have hj := seen_joinLoop (src := a) cs (chans_cache hn hc) (by
        rw [hours, hsh.2.1]
        split at hp
        · rename_i h1; rw [if_pos h1]; intro c hc ms hms; rw [hp c hc] at hms; cases hms
        · rename_i h1; rw [if_neg h1]; exact hp.2)
      refine ⟨?_, hj.1⟩
      intro k u hu
      rw [joinLoop_users, cache_get (hk _) hc] at hu
      have hnn : newNickOf a (joinInfo e us ho bot ext) = a := rfl
      rw [hnn] at hu
      split at hu
      · rename_i hka
        rw [← hka]
        refine hj.2.2 ?_
        rw [hours]
        split at hp
        · exact .inl (by assumption)
        · exact .inr hp.1
      · refine hj.2.1 k ?_
        rw [visible_congr hsh.1 hsh.2.1 hsh.2.2]
        exact h k u hu
  | part a cs =>
    simp only [ucStep, Option.some.injEq] at hs
    subst hs
    exact seen_partLoop cs h hn
  | kick c n =>
    simp only [ucStep] at hs
    split at hs
    · simp only [Option.some.injEq] at hs; subst hs; exact ⟨seen_leave h hn, chans_leave hn⟩
    · simp only [Option.some.injEq] at hs; subst hs
      cases hgo : ucGone e st c n with
      | none => exact ⟨h, hn⟩
      | some st' => exact ⟨seen_gone h hgo, chans_gone hn hgo⟩
  | quit a =>
    simp only [ucStep, Option.some.injEq] at hs
    subst hs
    refine ⟨?_, ?_⟩
    · intro k u hu
      simp only [ucQuit, mget_mdel] at hu
      split at hu
      · cases hu
      · rename_i hka
        rcases h k u hu with h' | h' | ⟨c, ms, hm, hkm⟩
        · exact .inl h'
        · exact .inr (.inl h')
        · refine .inr (.inr ⟨c, ms.filter (· ≠ casemap e.cm a), ?_, ?_⟩)
          · exact List.mem_map_of_mem
              (f := fun p : Str × List Str => (p.1, p.2.filter (· ≠ casemap e.cm a))) hm
          · simp [hkm, Ne.symm hka]
    · unfold ChansOK ucQuit; simp only [List.map_map]; exact hn
  | names c ns =>
    simp only [ucStep] at hs
    split at hs
    · cases hs; exact ⟨h, hn⟩
    · rename_i ms hg
      simp only [Option.some.injEq] at hs
      subst hs
      exact ⟨fun k u hu => visible_set hg (fun hm => mem_addMembers.2 (.inl hm)) (h k u hu),
        mset_nodup hn _ _⟩
  | who info =>
    simp only [ucStep] at hs
    split at hs
    · rename_i hsc
      refine ⟨seen_cache h (hk _) hs ?_, chans_cache hn hs⟩
      have : newNickOf info.nick info = info.nick := by unfold newNickOf; grind
      rw [this]; exact shouldCache_iff.1 hsc
    · cases hs; exact ⟨h, hn⟩
  | monitor ns on =>
    simp only [ucStep, Option.some.injEq] at hs
    subst hs
    refine ⟨?_, hn⟩
    intro k u hu
    rcases h k u hu with h' | h' | h'
    · exact .inl h'
    · exact .inr (.inl (mem_addMembers.2 (.inl h')))
    · exact .inr (.inr h')
  | away a b =>
    simp only [ucStep] at hs
    split at hs
    · cases hs; exact ⟨h, hn⟩
    · rename_i u hu
      split at hs
      · exact ⟨seen_cache h (hk _) hs (h _ u hu), chans_cache hn hs⟩
      · cases hs; exact ⟨h, hn⟩
  | unmonitor ns =>
    simp only [ucStep, Option.some.injEq] at hs
    subst hs
    exact seen_unmonitor ns h hn

/-- A user is cached under the folding of its nick. -/
def CacheKeys (e : UcEnv) (st : UcState) : Prop :=
  ∀ k u, GoMap.get st.users k = some u → casemap e.cm u.nick = k

theorem keys_cache {e : UcEnv} {st st' : UcState} {n : Str} {info : UUser} (h : CacheKeys e st)
    (hc : cacheUser e st n info = some st') : CacheKeys e st' := by
  intro k u hu
  rw [cache_get (h _) hc] at hu
  split at hu
  · rename_i hk
    simp only [Option.some.injEq] at hu
    subst hu
    rw [← hk]
    have hfold : casemap e.cm ((GoMap.get st.users (casemap e.cm n)).getD { nick := n }).nick
        = casemap e.cm n := by
      cases hu : GoMap.get st.users (casemap e.cm n) with
      | none => rfl
      | some v => exact h _ v hu
    simp only [updateFrom, orOld, newNickOf]
    by_cases hi : info.nick = []
    · simp [hi, hfold]
    · simp [hi]
  · split at hu
    · cases hu
    · exact h k u hu

theorem keys_sub {e : UcEnv} {st st' : UcState} (h : CacheKeys e st)
    (hs : ∀ k u, GoMap.get st'.users k = some u → GoMap.get st.users k = some u) :
    CacheKeys e st' := fun k u hu => h k u (hs k u hu)

theorem keys_step {e : UcEnv} {st st' : UcState} {op : UcOp} (h : CacheKeys e st)
    (hs : ucStep e st op = some st') : CacheKeys e st' := by
  cases op with
  | nick a b =>
    simp only [ucStep, ucNick] at hs
    generalize hst2 : ({ (if ucOurs e st a = true then { st with nick := b } else st) with
      chans := _ } : UcState) = st2 at hs
    have hus : st2.users = st.users := by rw [← hst2]; dsimp only; split <;> rfl
    exact keys_cache (keys_sub (st' := st2) h (fun k u hu => by rw [← hus]; exact hu)) hs
  | setname a r => exact keys_cache h hs
  | account a r => exact keys_cache h hs
  | chghost => cases hs; exact h
  | join a us ho bot ext cs =>
    simp only [ucStep] at hs
    split at hs
    · cases hs
    · rename_i hc
      simp only [Option.some.injEq] at hs
      subst hs
      exact keys_sub (keys_cache h hc) (fun k u hu => by rw [joinLoop_users] at hu; exact hu)
  | part a cs =>
    simp only [ucStep, Option.some.injEq] at hs
    subst hs
    exact keys_sub h (fun k u hg => partLoop_get cs hg)
  | kick c n =>
    simp only [ucStep] at hs
    refine keys_sub h ?_
    intro k u hg
    split at hs
    · simp only [Option.some.injEq] at hs; subst hs; exact leave_get hg
    · simp only [Option.some.injEq] at hs; subst hs
      cases hgo : ucGone e st c n with
      | none => rw [hgo] at hg; exact hg
      | some st' => rw [hgo] at hg; exact gone_get hgo hg
  | quit a =>
    simp only [ucStep, Option.some.injEq] at hs
    subst hs
    refine keys_sub h ?_
    intro k u hg
    simp only [ucQuit, mget_mdel] at hg
    split at hg
    · cases hg
    · exact hg
  | names c ns =>
    simp only [ucStep] at hs
    split at hs <;> (simp only [Option.some.injEq] at hs; subst hs; exact h)
  | who info =>
    simp only [ucStep] at hs
    split at hs
    · exact keys_cache h hs
    · cases hs; exact h
  | monitor ns on => cases hs; exact h
  | away a b =>
    simp only [ucStep] at hs
    split at hs
    · cases hs; exact h
    · split at hs
      · exact keys_cache h hs
      · cases hs; exact h
  | unmonitor ns =>
    simp only [ucStep, Option.some.injEq] at hs
    subst hs
    exact keys_sub h (fun k u hg => unmonitor_get ns hg)

end Verif.Proof
