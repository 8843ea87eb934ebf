import Verif.Proof.UserCache

/-! # C56: cached user information; C65: the cache and a hostile server -/

namespace Verif.Props
open Verif.Model Verif.Spec Verif.Proof

/-- The connection as it is registered: no channel, nobody cached or monitored. -/
private def fresh (nick : Str) : UcState := { nick := nick }

private theorem ucRun_none (e : UcEnv) (ops : List UcOp) :
    ops.foldl (fun (s : Option UcState) op => s.bind (fun s => ucStep e s op)) none = none := by
  induction ops with
  | nil => rfl
  | cons op ops ih => exact ih

private theorem ucRun_cons {e : UcEnv} {st st' : UcState} {op : UcOp} {ops : List UcOp}
    (h : ucRun e st (op :: ops) = some st') :
    ∃ st1, ucStep e st op = some st1 ∧ ucRun e st1 ops = some st' := by
  unfold ucRun at h
  simp only [List.foldl_cons, Option.bind_some] at h
  cases hs : ucStep e st op with
  | none => rw [hs, ucRun_none] at h; cases h
  | some st1 => rw [hs] at h; exact ⟨st1, rfl, h⟩

private theorem run_seen {e : UcEnv} (ops : List UcOp) {st st' : UcState}
    (h1 : CacheSeen e st) (h2 : ChansOK st) (h3 : CacheKeys e st) (hn : NamedRun ops)
    (hp : ProperRun e st ops) (hr : ucRun e st ops = some st') :
    CacheSeen e st' ∧ CacheKeys e st' := by
  induction ops generalizing st with
  | nil => cases hr; exact ⟨h1, h3⟩
  | cons op ops ih =>
    obtain ⟨st1, hs, hr⟩ := ucRun_cons hr
    have := seen_step h1 h2 h3 (fun a b h => hn a b (h ▸ List.mem_cons_self)) hp.1 hs
    exact ih this.1 this.2 (keys_step h3 hs) (fun a b h => hn a b (List.mem_cons_of_mem _ h))
      (hp.2 st1 hs) hr

private theorem run_ok {e : UcEnv} (ops hist : List UcOp) {st st' : UcState}
    (h1 : CacheSeen e st) (h2 : ChansOK st) (h3 : CacheOK e st hist) (ht : ∀ op ∈ ops, Tame op)
    (hp : ProperRun e st ops) (hr : ucRun e st ops = some st') :
    CacheOK e st' (ops.reverse ++ hist) := by
  induction ops generalizing st hist with
  | nil => cases hr; exact h3
  | cons op ops ih =>
    obtain ⟨st1, hs, hr⟩ := ucRun_cons hr
    have htop := ht op List.mem_cons_self
    have := seen_step h1 h2 (fun k u hu => (h3 k u hu).1)
      (fun a b h => by subst h; exact htop) hp.1 hs
    have h4 := cacheOK_step h3 (fun k u hu => shouldCache_iff.2 (h1 k u hu)) htop hs
    have := ih (op :: hist) this.1 this.2 h4 (fun o ho => ht o (List.mem_cons_of_mem _ ho))
      (hp.2 st1 hs) hr
    simpa using this

private theorem fresh_seen (e : UcEnv) (n : Str) : CacheSeen e (fresh n) := by
  intro k u h; simp [fresh, GoMap.get] at h

private theorem fresh_ok (e : UcEnv) (n : Str) : CacheOK e (fresh n) [] := by
  intro k u h; simp [fresh, GoMap.get] at h

private theorem members_mem {st : UcState} {fields : Str} (ns : List Str) {l : List UUser}
    (h : cachedMembers st fields ns = some l) :
    ∀ u ∈ l, hasWHOXFields u fields = true ∧ ∃ k ∈ ns, GoMap.get st.users k = some u := by
  induction ns generalizing l with
  | nil => cases h; intro u hu; cases hu
  | cons n ns ih =>
    simp only [cachedMembers] at h
    split at h
    · cases h
    · rename_i v hv
      split at h
      · rename_i hf
        cases hm : cachedMembers st fields ns with
        | none => rw [hm] at h; cases h
        | some l' =>
          rw [hm] at h
          simp only [Option.map_some, Option.some.injEq] at h
          subst h
          intro u hu
          rcases List.mem_cons.1 hu with rfl | hu
          · exact ⟨hf, n, List.mem_cons_self, hv⟩
          · obtain ⟨h1, k, h2, h3⟩ := ih hm u hu
            exact ⟨h1, k, List.mem_cons_of_mem _ h2, h3⟩
      · cases h

private theorem members_nicks {e : UcEnv} {st : UcState} {fields : Str} (hk : CacheKeys e st)
    (ns : List Str) {l : List UUser} (h : cachedMembers st fields ns = some l) :
    l.map (fun u => casemap e.cm u.nick) = ns := by
  induction ns generalizing l with
  | nil => cases h; rfl
  | cons n ns ih =>
    simp only [cachedMembers] at h
    split at h
    · cases h
    · rename_i v hv
      split at h
      · cases hm : cachedMembers st fields ns with
        | none => rw [hm] at h; cases h
        | some l' =>
          rw [hm] at h
          simp only [Option.map_some, Option.some.injEq] at h
          subst h
          simp [ih hm, hk _ v hv]
      · cases h

private theorem cached_cases {e : UcEnv} {st : UcState} {mask fields : Str} {l : List UUser}
    (h : getCachedWHO e st mask fields = some l) :
    (∃ u, GoMap.get st.users (casemap e.cm mask) = some u ∧ l = [u] ∧
      hasWHOXFields u (if fields = [] then b!"cuhsnfdr" else fields) = true) ∨
    (GoMap.get st.users (casemap e.cm mask) = none ∧
      ∃ ms, GoMap.get st.chans (casemap e.cm mask) = some ms ∧
        cachedMembers st (if fields = [] then b!"cuhsnfdr" else fields) ms = some l) := by
  unfold getCachedWHO at h
  generalize (if fields = [] then b!"cuhsnfdr" else fields) = fs at h ⊢
  dsimp only at h
  split at h
  · cases h
  · split at h
    · cases h
    · split at h
      · rename_i v hv
        split at h
        · rename_i hf
          simp only [Option.some.injEq] at h
          exact .inl ⟨v, hv, h.symm, hf⟩
        · cases h
      · rename_i hv
        split at h
        · cases h
        · rename_i ms hms
          exact .inr ⟨hv, ms, hms, h⟩

private theorem cached_mem {e : UcEnv} {st : UcState} {mask fields : Str} {l : List UUser}
    (h : getCachedWHO e st mask fields = some l) (u : UUser) (hu : u ∈ l) :
    hasWHOXFields u (if fields = [] then b!"cuhsnfdr" else fields) = true ∧
      ∃ k, GoMap.get st.users k = some u := by
  rcases cached_cases h with ⟨v, hv, rfl, hf⟩ | ⟨_, ms, _, hm⟩
  · simp only [List.mem_singleton] at hu
    subst hu
    exact ⟨hf, _, hv⟩
  · obtain ⟨h1, k, _, h3⟩ := members_mem _ hm u hu
    exact ⟨h1, k, h3⟩

private theorem run_keys {e : UcEnv} (ops : List UcOp) {st0 st : UcState} (h0 : CacheKeys e st0)
    (h : ucRun e st0 ops = some st) : CacheKeys e st := by
  induction ops generalizing st0 with
  | nil => cases h; exact h0
  | cons op ops ih =>
    obtain ⟨st1, hs, hr⟩ := ucRun_cons h
    exact ih (keys_step h0 hs) hr

private theorem fresh_keys (e : UcEnv) (n : Str) : CacheKeys e { nick := n } :=
  fun k u h => by simp [GoMap.get] at h

private theorem has_letter {u : UUser} {fs : Str} (h : hasWHOXFields u fs = true) {c : Byte}
    (hc : c ∈ fs) {f : WhoField} (hl : whoLetter c = some f) : u.get f ≠ [] := by
  have := List.all_eq_true.1 h c hc
  unfold whoLetter at hl
  split at hl <;> simp only [Option.some.injEq, reduceCtorEq] at hl <;> subst hl <;>
    simpa [hasWHOXField, UUser.get] using this

/-- C56: a WHO answered from the cache gives, in each column asked for, what the server last said of
the user of that nick, followed through its changes of nick — for a well-behaved server that sends
no CHGHOST, tells of no monitored user going offline, and sends no empty real name or account. -/
theorem C56_last_reported_partial (e : UcEnv) (nick : Str) (ops : List UcOp) (st : UcState)
    (hp : ProperRun e { nick := nick } ops) (ht : ∀ op ∈ ops, Tame op)
    (hr : ucRun e { nick := nick } ops = some st)
    (mask fields : Str) (l : List UUser) (h : getCachedWHO e st mask fields = some l)
    (u : UUser) (hu : u ∈ l) (c : Byte)
    (hc : c ∈ if fields = [] then b!"cuhsnfdr" else fields) (f : WhoField)
    (hl : whoLetter c = some f) :
    u.get f ≠ [] ∧ u.get f = lastKnown e f ops.reverse (casemap e.cm u.nick) := by
  have hok := run_ok ops [] (fresh_seen e nick) (by simp [ChansOK, fresh]) (fresh_ok e nick) ht hp hr
  simp only [List.append_nil] at hok
  obtain ⟨h1, k, h2⟩ := cached_mem h u hu
  have hne := has_letter h1 hc hl
  have := hok k u h2
  refine ⟨hne, ?_⟩
  rw [this.1]
  exact this.2 f hne

/-- C56: a WHO answered from the cache is about whom it was asked about: the one user with that nick, or
each member of the channel, once and in order. -/
theorem C56_whom (e : UcEnv) (nick : Str) (ops : List UcOp) (st : UcState)
    (hr : ucRun e { nick := nick } ops = some st)
    (mask fields : Str) (l : List UUser) (h : getCachedWHO e st mask fields = some l) :
    (∃ u, l = [u] ∧ casemap e.cm u.nick = casemap e.cm mask) ∨
    (∃ ms, GoMap.get st.chans (casemap e.cm mask) = some ms ∧
      l.map (fun u => casemap e.cm u.nick) = ms) := by
  have hk := run_keys ops (fresh_keys e nick) hr
  rcases cached_cases h with ⟨v, hv, rfl, hf⟩ | ⟨_, ms, hms, hm⟩
  · exact .inl ⟨v, rfl, hk _ v hv⟩
  · exact .inr ⟨ms, hms, members_nicks hk ms hm⟩

/-- C56: with a well-behaved server, nobody stays cached who is neither us, nor monitored, nor on one
of our channels.  (It does not hold of a server that tells about people we cannot see.) -/
theorem C56_visible_partial (e : UcEnv) (nick : Str) (ops : List UcOp) (st : UcState)
    (hp : ProperRun e { nick := nick } ops) (hn : NamedRun ops)
    (hr : ucRun e { nick := nick } ops = some st) (k : Str)
    (hk : GoMap.get st.users k ≠ none) : VisibleUser e st k := by
  obtain ⟨u, hu⟩ := Option.ne_none_iff_exists'.1 hk
  exact (run_seen ops (fresh_seen e nick) (by simp [ChansOK, fresh])
    (fun k u h => by simp [fresh, GoMap.get] at h) hn hp hr).1 k u hu

/-- C56: one who quit is forgotten at once. -/
theorem C56_quit (e : UcEnv) (st st' : UcState) (n : Str) (h : ucStep e st (.quit n) = some st') :
    GoMap.get st'.users (casemap e.cm n) = none ∧
      ∀ c ms, (c, ms) ∈ st'.chans → casemap e.cm n ∉ ms := by
  cases h
  refine ⟨by simp [ucQuit, mget_mdel], ?_⟩
  intro c ms hm
  simp only [ucQuit, List.mem_map] at hm
  obtain ⟨p, _, hp⟩ := hm
  cases hp
  simp

private def exEnv : UcEnv := ⟨.rfc1459, true, true, none⟩

private def exOps : List UcOp :=
  [.join b!"me" b!"mu" b!"mh" false (some (b!"*", b!"Me")) [b!"#c"],
   .names b!"#c" [b!"me", b!"Bob"],
   .who { nick := b!"Bob", user := b!"bu", host := b!"bh", server := b!"s", flags := b!"H",
          real := b!"Bob B" },
   .away b!"bob" true, .nick b!"BOB" b!"Bill", .account b!"Bill" b!"acc", .join b!"eve" b!"eu" b!"eh"
     false (some (b!"*", b!"Eve")) [b!"#c"], .part b!"eve" [b!"#c"]]

private theorem exOps_run : ProperRun exEnv { nick := b!"me" } exOps := by
  refine ⟨by unfold Proper; decide, fun _ h => ?_⟩; cases h
  refine ⟨trivial, fun _ h => ?_⟩; cases h
  refine ⟨trivial, fun _ h => ?_⟩; cases h
  refine ⟨trivial, fun _ h => ?_⟩; cases h
  refine ⟨.inr ⟨b!"#c", [b!"me", b!"bob"], by decide, by decide⟩, fun _ h => ?_⟩; cases h
  refine ⟨.inr (.inr ⟨b!"#c", [b!"me", b!"bill"], by decide, by decide⟩), fun _ h => ?_⟩; cases h
  refine ⟨by unfold Proper; decide, fun _ h => ?_⟩; cases h
  refine ⟨trivial, fun _ h => ?_⟩; cases h
  trivial

example : ProperRun exEnv { nick := b!"me" } exOps ∧ (∀ op ∈ exOps, Tame op) ∧
    ∃ st, ucRun exEnv { nick := b!"me" } exOps = some st ∧
      getCachedWHO exEnv st b!"BILL" b!"nuhfra" = some
        [{ nick := b!"Bill", user := b!"bu", host := b!"bh", server := b!"s", flags := b!"G",
           account := b!"acc", real := b!"Bob B" }] ∧
      GoMap.get st.users b!"eve" = none := by
  refine ⟨exOps_run, ?_, _, rfl, by decide, by decide⟩
  intro op hop
  simp only [exOps, List.mem_cons, List.not_mem_nil, or_false] at hop
  rcases hop with rfl | rfl | rfl | rfl | rfl | rfl | rfl | rfl <;>
    first | trivial | (simp [Tame])

/-- C56 does not hold of CHGHOST: the server says that the host of a member of our channel changed,
and the cache goes on giving the old one. -/
theorem C56_chghost_violated :
    ∃ (e : UcEnv) (ops : List UcOp) (st : UcState) (u : UUser),
      ProperRun e { nick := b!"me" } ops ∧ ucRun e { nick := b!"me" } ops = some st ∧
      getCachedWHO e st b!"bob" b!"nuh" = some [u] ∧ u.host = b!"old.host" ∧
      lastKnown e .host ops.reverse (casemap e.cm b!"bob") = b!"new.host" := by
  refine ⟨exEnv, [.join b!"me" b!"mu" b!"mh" false none [b!"#c"],
    .join b!"bob" b!"bu" b!"old.host" false none [b!"#c"],
    .chghost b!"bob" b!"bu" b!"new.host"], _, _, ?_, rfl, rfl, rfl, by decide⟩
  refine ⟨by unfold Proper; decide, fun _ h => ?_⟩; cases h
  refine ⟨by unfold Proper; decide, fun _ h => ?_⟩; cases h
  exact ⟨trivial, fun _ _ => trivial⟩

/-- C56 does not hold of monitored users: someone we monitor goes offline and someone else comes online
under the nick; the cache gives the information of the first. -/
theorem C56_offline_violated :
    ∃ (e : UcEnv) (ops : List UcOp) (st : UcState) (u : UUser),
      ProperRun e { nick := b!"me" } ops ∧ ucRun e { nick := b!"me" } ops = some st ∧
      getCachedWHO e st b!"bob" b!"nuh" = some [u] ∧ u.host = b!"first.host" ∧
      lastKnown e .host ops.reverse (casemap e.cm b!"bob") = [] := by
  refine ⟨exEnv, [.monitor [b!"bob"] true,
    .who { nick := b!"bob", user := b!"bu", host := b!"first.host" },
    .monitor [b!"bob"] false, .monitor [b!"bob"] true], _, _, ?_, rfl, rfl, rfl, by decide⟩
  refine ⟨trivial, fun _ h => ?_⟩; cases h
  refine ⟨trivial, fun _ h => ?_⟩; cases h
  refine ⟨trivial, fun _ h => ?_⟩; cases h
  exact ⟨trivial, fun _ _ => trivial⟩

/-! ## C65 -/

/-- The nick a message is about is not empty. -/
def Sourced : UcOp → Prop
  | .nick a _ => a ≠ [] | .setname a _ => a ≠ [] | .account a _ => a ≠ []
  | .join a _ _ _ _ _ => a ≠ [] | .away a _ => a ≠ []
  | .who info => info.nick ≠ []
  | _ => True

private theorem cache_ne {e : UcEnv} {st : UcState} {n : Str} {info : UUser} (h : n ≠ []) :
    cacheUser e st n info ≠ none := by
  unfold cacheUser
  rw [if_neg h]
  grind

private theorem sourced_step (e : UcEnv) (st : UcState) (op : UcOp) (h : Sourced op) :
    ucStep e st op ≠ none := by
  cases op with
  | nick a b => exact cache_ne h
  | setname a b => exact cache_ne h
  | account a b => exact cache_ne h
  | join a us ho bot ext cs =>
    simp only [ucStep]
    split
    · rename_i hc; exact absurd hc (cache_ne h)
    · simp
  | who info => simp only [ucStep]; split; exact cache_ne h; simp
  | away a b =>
    simp only [ucStep]
    split
    · simp
    · split; exact cache_ne h; simp
  | kick c n => simp only [ucStep]; split <;> simp
  | names c n => simp only [ucStep]; split <;> simp
  | _ => simp [ucStep]

/-- C65: no sequence of messages about users crashes the bouncer, as long as each names the user it is
about. -/
theorem C65_no_crash_partial (e : UcEnv) (st : UcState) (ops : List UcOp)
    (h : ∀ op ∈ ops, Sourced op) : ucRun e st ops ≠ none := by
  induction ops generalizing st with
  | nil => simp [ucRun]
  | cons op ops ih =>
    obtain ⟨st1, hs⟩ := Option.ne_none_iff_exists'.1 (sourced_step e st op (h op List.mem_cons_self))
    have := ih st1 (fun o ho => h o (List.mem_cons_of_mem _ ho))
    unfold ucRun at this ⊢
    simp only [List.foldl_cons, Option.bind_some, hs]
    exact this

example : ∀ op ∈ exOps, Sourced op := by
  intro op hop
  simp only [exOps, List.mem_cons, List.not_mem_nil, or_false] at hop
  rcases hop with rfl | rfl | rfl | rfl | rfl | rfl | rfl | rfl <;>
    first | trivial | (simp [Sourced])

/-- C65 does not hold of a message whose source has an empty nick (`:!u@h JOIN #c`): it crashes the
event loop of the user in any state. -/
theorem C65_empty_source_violated (e : UcEnv) (st : UcState) :
    ∃ op, ucStep e st op = none := by
  exact ⟨.join [] b!"u" b!"h" false none [b!"#c"], rfl⟩

/-- C65: answering WHO from the cache does not crash the bouncer, unless someone is cached under the
very mask asked for and that mask looks like a channel. -/
theorem C65_who_partial (e : UcEnv) (nick : Str) (ops : List UcOp) (st : UcState)
    (hr : ucRun e { nick := nick } ops = some st) (types mask fields : Str)
    (hm : mask.head?.any (· ∈ types) → GoMap.get st.users (casemap e.cm mask) = none) :
    answerWHO e types st mask fields ≠ none := by
  unfold answerWHO
  split
  · simp
  · rename_i l hl
    split
    · rename_i hc
      rcases cached_cases hl with ⟨v, hv, rfl, hf⟩ | ⟨_, ms, hms, hcm⟩
      · rw [hm hc] at hv; cases hv
      · have hl' := members_nicks (run_keys ops (fresh_keys e nick) hr) ms hcm
        rw [hms]
        dsimp only
        have : l.all (fun u => decide (casemap e.cm u.nick ∈ ms)) = true := by
          rw [List.all_eq_true]
          intro u hu
          simp only [decide_eq_true_eq]
          rw [← hl']
          exact List.mem_map_of_mem (f := fun u : UUser => casemap e.cm u.nick) hu
        rw [if_pos this]
        simp
    · simp

/-- C65 does not hold of a server that gives someone the nick `#c`: a WHO for it crashes the event loop
of the user. -/
theorem C65_who_violated :
    ∃ (e : UcEnv) (ops : List UcOp) (st : UcState), ucRun e { nick := b!"me" } ops = some st ∧
      answerWHO e b!"#&" st b!"#c" b!"n" = none := by
  exact ⟨exEnv, [.setname b!"#c" b!"x"], _, rfl, by decide⟩

end Verif.Props
