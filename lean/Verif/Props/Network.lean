import Verif.Model.Network
import Verif.Proof.Url
import Verif.Proof.Util

/-! # C30-C32: network names, limits and addresses -/

namespace Verif.Props
open Verif.Model Verif.Proof

/-! ## Specification -/

/-- What any list of networks loaded from the database satisfies: identifiers are distinct and not zero. -/
def NwIds (st : NwState) : Prop := (st.networks.map (·.id)).Nodup ∧ ∀ n ∈ st.networks, n.id ≠ 0

/-- No two networks have the same name. -/
def DistinctNames (st : NwState) : Prop := st.networks.Pairwise (fun a b => a.getName ≠ b.getName)

/-- The number of enabled networks. -/
def enabledNumber (st : NwState) : Nat := st.networks.countP (·.enabled)

/-- The limit in force is `n`: the user's own, or else the configured one. -/
def LimitIs (st : NwState) (n : Nat) : Prop :=
  st.maxNetworks = n ∨ (st.maxNetworks < 0 ∧ st.cfgMax = n)

/-- The request carries the flag `-ignore-limit`. -/
def nwIgnores : NwOp → Bool
  | .svcCreate _ flags _ => flags.ignoreLimit
  | .svcUpdate _ _ _ flags _ => flags.ignoreLimit
  | _ => false

/-- The operation makes the user an administrator. -/
def nwPromotes : NwOp → Bool
  | .setUser _ _ admin _ => admin
  | _ => false

/-- The address as a URL: the scheme is "ircs" unless there is one. -/
def fullAddr (addr : Str) : Str := if (cutStr b!"://" addr).isSome then addr else b!"ircs://" ++ addr

/-! ## Lemmas -/

private theorem addNetwork_perm (l : List NetRec) (n : NetRec) : (addNetwork l n).Perm (n :: l) := by
  induction l with
  | nil => exact List.Perm.refl _
  | cons m l ih =>
    unfold addNetwork
    split
    · exact List.Perm.refl _
    · exact (ih.cons m).trans (List.Perm.swap n m l)

private theorem removeNetwork_perm {l : List NetRec} {n : NetRec} (hn : n ∈ l)
    (nd : (l.map (·.id)).Nodup) : l.Perm (n :: removeNetwork l n.id) := by
  induction l with
  | nil => simp at hn
  | cons m l ih =>
    unfold removeNetwork
    simp at nd
    split
    · rename_i h
      have : m = n := by
        rcases List.mem_cons.1 hn with h' | h'
        · exact h'.symm
        · exact absurd h.symm (nd.1 n h')
      rw [this]
    · rename_i h
      have hn' : n ∈ l := by
        rcases List.mem_cons.1 hn with h' | h'
        · subst h'; simp at h
        · exact h'
      exact ((ih hn' nd.2).cons m).trans (List.Perm.swap _ _ _)

private theorem byId_mem {st : NwState} {id : Nat} {n : NetRec} (h : getNetworkByID st id = some n) :
    n ∈ st.networks ∧ n.id = id := by
  refine ⟨List.mem_of_find?_eq_some h, by simpa using List.find?_some h⟩

private theorem byId_none {st : NwState} {id : Nat} (h : (getNetworkByID st id).isSome = false) :
    ∀ n ∈ st.networks, n.id ≠ id := by
  simp [getNetworkByID] at h
  exact h

private theorem fromArg_mem {st : NwState} {name : Str} {cur : Option Nat} {n : NetRec}
    (h : networkFromArg st name cur = some n) : n ∈ st.networks := by
  unfold networkFromArg at h
  split at h
  · cases cur with
    | none => simp at h
    | some id => exact (byId_mem h).1
  · exact List.mem_of_find?_eq_some h

private theorem update_id {ircOk : Str → Bool} {fs : NetFlags} {r r' : NetRec}
    (h : fs.update ircOk r = some r') : r'.id = r.id := by
  unfold NetFlags.update at h
  simp only [Option.bind_eq_bind, Option.bind_eq_some_iff] at h
  obtain ⟨r1, h1, r2, h2, r3, h3, h4⟩ := h
  have e1 : r1.id = r.id := by
    unfold flagAddr at h1; split at h1
    · simp at h1; rw [h1]
    · split at h1
      · split at h1 <;> simp at h1; subst h1; rfl
      · simp at h1; subst h1; rfl
  have e2 : r2.id = r1.id := by
    unfold flagName at h2
    repeat' split at h2
    all_goals simp at h2
    all_goals (subst h2; rfl)
  have e3 : r3.id = r2.id := by
    unfold flagCertFP at h3
    split at h3
    · simp at h3; subst h3; rfl
    · simp only at h3
      repeat' split at h3
      all_goals simp at h3
      all_goals (subst h3; rfl)
  have e4 : r'.id = r3.id := by
    unfold flagConnectCommands at h4
    repeat' split at h4
    all_goals simp at h4
    all_goals (subst h4; rfl)
  omega

private theorem attrs_id {lib : UrlLib} {r r' : NetRec} {a : NetAttrs}
    (h : updateNetworkAttrs lib r a = some r') : r'.id = r.id ∧ r'.enabled = r.enabled := by
  unfold updateNetworkAttrs at h
  simp only at h
  repeat' split at h
  all_goals simp at h
  all_goals (subst h; exact ⟨rfl, rfl⟩)

private theorem wipe_id {st : NwState} {r : NetRec} :
    (wipeDefaults st r).id = r.id ∧ (wipeDefaults st r).enabled = r.enabled := by
  unfold wipeDefaults
  simp only
  repeat' split
  all_goals exact ⟨rfl, rfl⟩

/-- The effect of an operation on the list; `lim` says whether the limit is enforced. -/
private inductive Eff (lib : UrlLib) (lim : Bool) (st st' : NwState) : Prop
  | same (h : st'.networks = st.networks)
  | create (r : NetRec) (hp : st'.networks.Perm (r :: st.networks)) (h0 : r.id ≠ 0)
      (hf : ∀ n ∈ st.networks, n.id ≠ r.id) (hc : checkNetwork lib st { r with id := 0 } = true)
      (hl : lim = true → r.enabled = true → canEnableNewNetwork st = true)
  | update (old r : NetRec) (rest : List NetRec) (h1 : st.networks.Perm (old :: rest))
      (h2 : st'.networks.Perm (r :: rest)) (hid : r.id = old.id) (hc : checkNetwork lib st r = true)
      (hl : lim = true → r.enabled = true → old.enabled = false → canEnableNewNetwork st = true)
  | delete (old : NetRec) (h : st.networks.Perm (old :: st'.networks))
  | edit (f : NetRec → NetRec) (h : st'.networks = st.networks.map f)
      (hf : ∀ n, (f n).id = n.id ∧ (f n).addr = n.addr ∧ (f n).name = n.name ∧ (f n).enabled = n.enabled)

private theorem eff_create {lib : UrlLib} {st st' : NwState} {r : NetRec} {enf : Bool} {db : Option Nat}
    (h0 : r.id = 0) (h : createNetwork lib st r enf db = some st') : Eff lib enf st st' := by
  unfold createNetwork at h
  split at h
  · simp at h
  rename_i h1
  split at h
  · simp at h
  rename_i h2
  split at h
  · simp at h
  rename_i id
  split at h
  · simp at h
  rename_i h3
  simp at h
  subst h
  refine .create { r with id := id } (addNetwork_perm _ _) (by grind) ?_ ?_ ?_
  · exact byId_none (by simp at h3; simp [h3.2])
  · have : ({ r with id := 0 } : NetRec) = r := by rw [← h0]
    simpa [this] using h2
  · intro he hr
    subst he
    simp at h1 hr
    exact h1 hr

private theorem eff_update {lib : UrlLib} {st st' : NwState} {r old : NetRec} {enf ok lim : Bool}
    (nd : (st.networks.map (·.id)).Nodup) (ho : old ∈ st.networks) (hid : r.id = old.id)
    (he : lim = true → r.enabled = true → old.enabled = false → enf = true)
    (h : updateNetwork lib st r enf ok = some st') : Eff lib lim st st' := by
  unfold updateNetwork at h
  split at h
  · simp at h
  rename_i h1
  simp only at h
  generalize hr1 : (if r.nick = st.nick then { r with nick := [] } else r) = r1 at h
  generalize hr2 : (if r1.realname = st.realname then { r1 with realname := [] } else r1) = r2 at h
  have hr : r2.id = r.id ∧ r2.enabled = r.enabled := by grind
  split at h
  · simp at h
  rename_i h2
  split at h
  · simp at h
  simp at h
  subst h
  refine .update old r2 (removeNetwork st.networks old.id) (removeNetwork_perm ho nd) ?_ (by rw [hr.1, hid])
    (by simpa using h2) ?_
  · rw [hr.1, hid]; exact addNetwork_perm _ _
  · intro hl hen hold
    rw [hr.2] at hen
    have := he hl hen hold
    subst this
    simp at h1
    exact h1 hen

private theorem eff_result {lib : UrlLib} {lim : Bool} {st : NwState} {o : Option NwState}
    (h : ∀ st', o = some st' → Eff lib lim st st') : Eff lib lim st (nwResult st o).1 := by
  cases o with
  | none => exact .same rfl
  | some st' => exact h st' rfl

private theorem nwStep_eff (lib : UrlLib) (ircOk : Str → Bool) (st : NwState) (op : NwOp) (w : NwIds st) :
    Eff lib (!nwIgnores op) st (nwStep lib ircOk st op).1 := by
  have nd := w.1
  cases op with
  | svcCreate admin flags db =>
    refine eff_result (fun st' h => ?_)
    split at h
    · simp at h
    split at h
    · simp at h
    simp only [Option.bind_eq_some_iff] at h
    obtain ⟨r, h1, h2⟩ := h
    exact eff_create (by rw [update_id h1]) h2
  | svcUpdate admin name cur flags ok =>
    refine eff_result (fun st' h => ?_)
    split at h
    · simp at h
    rename_i net hn
    split at h
    · simp at h
    simp only [Option.bind_eq_some_iff] at h
    obtain ⟨r, h1, h2⟩ := h
    refine eff_update nd (fromArg_mem hn) (update_id h1) (fun hl hr ho => ?_) h2
    simp [nwIgnores] at hl
    simp [hl, ho]
  | svcDelete name cur ok =>
    refine eff_result (fun st' h => ?_)
    split at h
    · simp at h
    rename_i net hn
    unfold deleteNetwork at h
    split at h
    · simp at h
    simp at h; subst h
    exact .delete net (removeNetwork_perm (fromArg_mem hn) nd)
  | bncAdd nick attrs db =>
    refine eff_result (fun st' h => ?_)
    simp only [Option.bind_eq_some_iff] at h
    obtain ⟨r, h1, h2⟩ := h
    exact eff_create (by rw [(wipe_id (st := st)).1, (attrs_id h1).1]) h2
  | bncChange id attrs ok =>
    refine eff_result (fun st' h => ?_)
    split at h
    · simp at h
    rename_i net hn
    simp only [Option.bind_eq_some_iff] at h
    obtain ⟨r, h1, h2⟩ := h
    refine eff_update nd (byId_mem hn).1 (by rw [wipe_id.1, (attrs_id h1).1]) (fun hl hr ho => ?_) h2
    simp [ho]
  | bncDelete id ok =>
    refine eff_result (fun st' h => ?_)
    split at h
    · simp at h
    rename_i net hn
    unfold deleteNetwork at h
    split at h
    · simp at h
    simp at h; subst h
    exact .delete net (removeNetwork_perm (byId_mem hn).1 nd)
  | login name nick reach db =>
    simp only [nwStep]
    split
    · exact .same rfl
    split
    · exact .same rfl
    split
    · exact .same rfl
    refine eff_result (fun st' h => ?_)
    split at h
    · exact eff_create rfl h
    · simp at h
  | setNick id nick ok =>
    simp only [nwStep]
    split
    · exact .edit _ rfl (by intro n; split <;> simp)
    · exact .same rfl
  | setRealname id realname capable ok =>
    cases capable with
    | true => exact .same rfl
    | false =>
    refine eff_result (fun st' h => ?_)
    split at h
    · simp at h
    rename_i net hn
    exact eff_update nd (byId_mem hn).1 (by rfl) (fun _ h1 h2 => by
      change net.enabled = true at h1; rw [h1] at h2; cases h2) h
  | setSasl id sasl =>
    exact .edit _ rfl (by intro n; split <;> simp)
  | setUser => exact .same rfl
  | refresh id ok =>
    refine eff_result (fun st' h => ?_)
    split at h
    · simp at h
    rename_i net hn
    exact eff_update nd (byId_mem hn).1 (by rfl) (fun _ h1 h2 => by
      change net.enabled = true at h1; rw [h1] at h2; cases h2) h
  | setCfgMax => exact .same rfl

private theorem nwIds_eff {lib : UrlLib} {lim : Bool} {st st' : NwState} (w : NwIds st) (e : Eff lib lim st st') :
    NwIds st' := by
  obtain ⟨nd, nz⟩ := w
  unfold NwIds
  cases e with
  | same h => rw [h]; exact ⟨nd, nz⟩
  | create r hp h0 hf hc hl =>
    refine ⟨((hp.map (·.id)).nodup_iff).2 (by simp; exact ⟨hf, nd⟩), fun n hn => ?_⟩
    rcases List.mem_cons.1 (hp.mem_iff.1 hn) with h | h
    · exact h ▸ h0
    · exact nz n h
  | update old r rest h1 h2 hid hc hl =>
    have nd' := ((h1.map (·.id)).nodup_iff).1 nd
    refine ⟨((h2.map (·.id)).nodup_iff).2 (by simpa [hid] using nd'), fun n hn => ?_⟩
    rcases List.mem_cons.1 (h2.mem_iff.1 hn) with h | h
    · rw [h, hid]; exact nz old (h1.mem_iff.2 (by simp))
    · exact nz n (h1.mem_iff.2 (by simp [h]))
  | delete old h =>
    have nd' := ((h.map (·.id)).nodup_iff).1 nd
    simp at nd'
    exact ⟨nd'.2, fun n hn => nz n (h.mem_iff.2 (by simp [hn]))⟩
  | edit f h hf =>
    rw [h]
    refine ⟨?_, ?_⟩
    · rw [List.map_map]
      have : ((fun x => x.id) ∘ f : NetRec → Nat) = (·.id) := by funext n; exact (hf n).1
      rw [this]; exact nd
    · intro n hn
      obtain ⟨m, hm, rfl⟩ := List.mem_map.1 hn
      rw [(hf m).1]; exact nz m hm

private theorem names_iff (st : NwState) : DistinctNames st ↔ (st.networks.map (·.getName)).Nodup := by
  unfold DistinctNames List.Nodup
  rw [List.pairwise_map]

private theorem check_names {lib : UrlLib} {st : NwState} {r : NetRec} (h : checkNetwork lib st r = true) :
    ∀ n ∈ st.networks, n.getName = r.getName → n.id = r.id := by
  unfold checkNetwork at h
  split at h
  · simp at h
  · simp at h
    intro n hn he
    rcases h.2 n hn with h' | h'
    · exact absurd he h'
    · exact h'

private theorem check_form {lib : UrlLib} {st : NwState} {r : NetRec} (h : checkNetwork lib st r = true) :
    r.getName ≠ [] ∧ hasPrefix b!"-" r.getName = false := by
  unfold checkNetwork at h
  split at h
  · simp at h
  · simp at h; grind

private theorem names_eff {lib : UrlLib} {lim : Bool} {st st' : NwState} (w : NwIds st) (d : DistinctNames st)
    (e : Eff lib lim st st') : DistinctNames st' := by
  obtain ⟨nd, nz⟩ := w
  rw [names_iff] at d ⊢
  cases e with
  | same h => rw [h]; exact d
  | create r hp h0 hf hc hl =>
    refine ((hp.map (·.getName)).nodup_iff).2 ?_
    simp
    refine ⟨fun n hn he => ?_, d⟩
    exact nz n hn (check_names hc n hn he)
  | update old r rest h1 h2 hid hc hl =>
    have d' := ((h1.map (·.getName)).nodup_iff).1 d
    have nd' := ((h1.map (·.id)).nodup_iff).1 nd
    simp at d' nd'
    refine ((h2.map (·.getName)).nodup_iff).2 ?_
    simp
    refine ⟨fun n hn he => ?_, d'.2⟩
    have := check_names hc n (h1.mem_iff.2 (by simp [hn])) he
    exact nd'.1 n hn (by rw [this, hid])
  | delete old h =>
    have d' := ((h.map (·.getName)).nodup_iff).1 d
    simp at d'
    exact d'.2
  | edit f h hf =>
    rw [h, List.map_map]
    have : ((fun x => x.getName) ∘ f : NetRec → Str) = (·.getName) := by
      funext n; simp [NetRec.getName, (hf n).2.1, (hf n).2.2.1]
    rw [this]; exact d

theorem nwRun_ids {lib : UrlLib} {ircOk : Str → Bool} {st : NwState} (ops : List NwOp) (w : NwIds st) :
    NwIds (nwRun lib ircOk st ops) := by
  induction ops generalizing st with
  | nil => exact w
  | cons op ops ih => exact ih (nwIds_eff w (nwStep_eff lib ircOk st op w))

private theorem nwRun_append (lib : UrlLib) (ircOk : Str → Bool) (st : NwState) (a b : List NwOp) :
    nwRun lib ircOk st (a ++ b) = nwRun lib ircOk (nwRun lib ircOk st a) b := by
  simp [nwRun]

/-! ## C30 -/

/-- A library for the examples: every host is accepted as it is. -/
def exUrlLib : UrlLib := ⟨some, fun _ => true⟩

/-- A user without networks. -/
def exNwUser : NwState := ⟨b!"alice", b!"alice", [], false, -1, 2, []⟩

/-- A history: two networks are created, the first is renamed, a third creation fails, one is deleted. -/
def exNwOps : List NwOp :=
  [.svcCreate false { addr := some b!"irc.libera.chat", name := some b!"libera" } (some 1),
   .bncAdd b!"alice" { host := some b!"irc.oftc.net", port := some b!"6697" } (some 2),
   .bncChange 1 { name := some b!"lib" } true,
   .svcCreate false { addr := some b!"other" } (some 3),
   .svcDelete b!"lib" Option.none true]

/-- C30: after any history, no two networks of a user have the same name. -/
theorem C30_unique (lib : UrlLib) (ircOk : Str → Bool) (st : NwState) (ops : List NwOp) (w : NwIds st)
    (d : DistinctNames st) : DistinctNames (nwRun lib ircOk st ops) := by
  induction ops generalizing st with
  | nil => exact d
  | cons op ops ih =>
    exact ih _ (nwIds_eff w (nwStep_eff lib ircOk st op w)) (names_eff w d (nwStep_eff lib ircOk st op w))

example : NwIds exNwUser ∧ DistinctNames exNwUser ∧
    ((nwRun exUrlLib (fun _ => true) exNwUser (exNwOps.take 4)).networks.map (·.getName)) =
      [b!"lib", b!"irc.oftc.net:6697"] ∧
    ((nwRun exUrlLib (fun _ => true) exNwUser exNwOps).networks.map (·.getName)) =
      [b!"irc.oftc.net:6697"] := by
  unfold NwIds DistinctNames
  decide +kernel

/-- C30: identifiers stay distinct, and looking a network up by its identifier finds it. -/
theorem C30_lookup_id (lib : UrlLib) (ircOk : Str → Bool) (st : NwState) (ops : List NwOp) (w : NwIds st)
    (n : NetRec) (hn : n ∈ (nwRun lib ircOk st ops).networks) :
    getNetworkByID (nwRun lib ircOk st ops) n.id = some n := by
  have w' := nwRun_ids (lib := lib) (ircOk := ircOk) ops w
  generalize nwRun lib ircOk st ops = s at *
  cases h : getNetworkByID s n.id with
  | none =>
    have := byId_none (st := s) (id := n.id) (by simp [h]) n hn
    simp at this
  | some m =>
    have := byId_mem h
    rw [eq_of_nodup_map w'.1 this.1 hn this.2]

/-- C30: names given to networks are never empty and never look like a flag, if this holds at first. -/
theorem C30_wellformed (lib : UrlLib) (ircOk : Str → Bool) (st : NwState) (ops : List NwOp) (w : NwIds st)
    (d : ∀ n ∈ st.networks, n.getName ≠ [] ∧ hasPrefix b!"-" n.getName = false) :
    ∀ n ∈ (nwRun lib ircOk st ops).networks, n.getName ≠ [] ∧ hasPrefix b!"-" n.getName = false := by
  induction ops generalizing st with
  | nil => exact d
  | cons op ops ih =>
    have e := nwStep_eff lib ircOk st op w
    refine ih _ (nwIds_eff w e) ?_
    cases e with
    | same h => rw [h]; exact d
    | create r hp h0 hf hc hl =>
      intro n hn
      rcases List.mem_cons.1 (hp.mem_iff.1 hn) with h | h
      · subst h; exact check_form (r := { n with id := 0 }) hc
      · exact d n h
    | update old r rest h1 h2 hid hc hl =>
      intro n hn
      rcases List.mem_cons.1 (h2.mem_iff.1 hn) with h | h
      · subst h; exact check_form hc
      · exact d n (h1.mem_iff.2 (by simp [h]))
    | delete old h => exact fun n hn => d n (h.mem_iff.2 (by simp [hn]))
    | edit f h hf =>
      rw [h]
      intro n hn
      obtain ⟨m, hm, rfl⟩ := List.mem_map.1 hn
      have : (f m).getName = m.getName := by simp [NetRec.getName, (hf m).2.1, (hf m).2.2.1]
      rw [this]; exact d m hm

/-- C30, what holds of the second half: looking a network up by its name finds it, unless its name is the
address of another network. -/
theorem C30_lookup_partial (lib : UrlLib) (ircOk : Str → Bool) (st : NwState) (ops : List NwOp) (w : NwIds st)
    (d : DistinctNames st) (n : NetRec) (hn : n ∈ (nwRun lib ircOk st ops).networks)
    (hx : ∀ m ∈ (nwRun lib ircOk st ops).networks, m.addr = n.getName → m = n) :
    getNetwork (nwRun lib ircOk st ops) n.getName = some n := by
  have d' := C30_unique lib ircOk st ops w d
  generalize nwRun lib ircOk st ops = s at *
  rw [names_iff] at d'
  cases h : getNetwork s n.getName with
  | none =>
    simp [getNetwork] at h
    have := h n hn
    unfold NetRec.getName at this
    grind
  | some m =>
    have h1 : m ∈ s.networks := List.mem_of_find?_eq_some h
    have h2 := List.find?_some h
    simp at h2
    rcases h2 with h2 | ⟨h2, h3⟩
    · rw [hx m h1 h2]
    · have : m.getName = n.getName := by rw [← h3]; simp [NetRec.getName, h2]
      rw [eq_of_nodup_map d' h1 hn this]

example : ∀ n ∈ (nwRun exUrlLib (fun _ => true) exNwUser (exNwOps.take 4)).networks,
    (∀ m ∈ (nwRun exUrlLib (fun _ => true) exNwUser (exNwOps.take 4)).networks, m.addr = n.getName → m = n) := by
  decide +kernel

/-- C30 fails in general: a network may be named like the address of another one, and then its name finds the
other one. -/
theorem C30_lookup_violated :
    ∃ (ops : List NwOp) (n : NetRec), n ∈ (nwRun exUrlLib (fun _ => true) exNwUser ops).networks ∧
      getNetwork (nwRun exUrlLib (fun _ => true) exNwUser ops) n.getName ≠ some n ∧
      (getNetwork (nwRun exUrlLib (fun _ => true) exNwUser ops) n.getName).isSome := by
  refine ⟨[.svcCreate false { addr := some b!"irc.libera.chat", name := some b!"libera" } (some 1),
    .svcCreate false { addr := some b!"irc.oftc.net", name := some b!"irc.libera.chat" } (some 2)],
    { id := 2, name := b!"irc.libera.chat", addr := b!"irc.oftc.net" }, ?_⟩
  decide +kernel

/-- The name "*" is reserved (service.go:546), but the BOUNCER commands accept it; a client cannot log in for
such a network by its name. -/
theorem C30_reserved_violated :
    ∃ (ops : List NwOp), (∃ n ∈ (nwRun exUrlLib (fun _ => true) exNwUser ops).networks, n.name = b!"*") ∧
      ∀ nick r db, (nwStep exUrlLib (fun _ => true) (nwRun exUrlLib (fun _ => true) exNwUser ops)
        (.login b!"*" nick r db)).2 = false := by
  refine ⟨[.bncAdd b!"alice" { host := some b!"irc.libera.chat", name := some b!"*" } (some 1)], ?_, ?_⟩
  · decide +kernel
  · intro nick r db; rfl

/-! ## C31 -/

private theorem canEnable_lt {st : NwState} {n : Nat} (hl : LimitIs st n) :
    canEnableNewNetwork st = true ↔ enabledNumber st < n := by
  have hlim : st.limit = some (n : Int) := by
    unfold NwState.limit
    unfold LimitIs at hl
    simp only
    rcases hl with h | ⟨h1, h2⟩
    · rw [if_neg (by omega), if_neg (by omega), h]
    · rw [if_pos h1, if_neg (by omega), h2]
  unfold canEnableNewNetwork
  simp only [hlim, enabledNumber, NwState.enabledCount, List.countP_eq_length_filter]
  simp

private theorem count_eff {lib : UrlLib} {st st' : NwState} {n : Nat} (e : Eff lib true st st') (hl : LimitIs st n) :
    enabledNumber st' ≤ max (enabledNumber st) n := by
  unfold enabledNumber
  cases e with
  | same h => rw [h]; omega
  | create r hp h0 hf hc hl' =>
    rw [hp.countP_eq, List.countP_cons]
    split
    · rename_i hr
      have := (canEnable_lt hl).1 (hl' rfl hr)
      unfold enabledNumber at this
      omega
    · omega
  | update old r rest h1 h2 hid hc hl' =>
    rw [h2.countP_eq, h1.countP_eq, List.countP_cons, List.countP_cons]
    split
    · rename_i hr
      split
      · omega
      · rename_i ho
        have := (canEnable_lt hl).1 (hl' rfl hr (by simpa using ho))
        unfold enabledNumber at this
        rw [h1.countP_eq, List.countP_cons, if_neg ho] at this
        omega
    · omega
  | delete old h => rw [h.countP_eq, List.countP_cons]; omega
  | edit f h hf =>
    rw [h, List.countP_map]
    have : ((fun x => x.enabled) ∘ f : NetRec → Bool) = (·.enabled) := by funext n; exact (hf n).2.2.2
    rw [this]; omega

/-- C31: as long as the limit `n` is in force and no request ignores it, the number of enabled networks does
not exceed it (or what it was at first, if it was more). -/
theorem C31_limit (lib : UrlLib) (ircOk : Str → Bool) (st : NwState) (ops : List NwOp) (n : Nat) (w : NwIds st)
    (hl : ∀ pre suf, ops = pre ++ suf → LimitIs (nwRun lib ircOk st pre) n)
    (hi : ∀ op ∈ ops, nwIgnores op = false) :
    enabledNumber (nwRun lib ircOk st ops) ≤ max (enabledNumber st) n := by
  induction ops using snocInd with
  | nil => simp [nwRun]; omega
  | snoc ops op ih =>
    have h1 := ih (fun pre suf h => hl pre (suf ++ [op]) (by simp [h])) (fun o ho => hi o (by simp [ho]))
    rw [nwRun_append]
    have e := nwStep_eff lib ircOk (nwRun lib ircOk st ops) op (nwRun_ids ops w)
    rw [hi op (by simp)] at e
    have := count_eff e (hl ops [op] rfl)
    change enabledNumber (nwStep lib ircOk (nwRun lib ircOk st ops) op).1 ≤ _
    omega

example : (∀ pre suf, exNwOps = pre ++ suf → LimitIs (nwRun exUrlLib (fun _ => true) exNwUser pre) 2) ∧
    (∀ op ∈ exNwOps, nwIgnores op = false) ∧
    enabledNumber (nwRun exUrlLib (fun _ => true) exNwUser (exNwOps.take 4)) = 2 := by
  refine ⟨?_, by decide +kernel, by decide +kernel⟩
  intro pre suf h
  have : pre = exNwOps.take pre.length := by rw [h]; simp
  rw [this]
  have hle : pre.length ≤ 5 := by
    have := congrArg List.length h
    simp [exNwOps] at this; omega
  generalize pre.length = k at hle
  unfold LimitIs
  match k with
  | 0 | 1 | 2 | 3 | 4 | 5 => decide +kernel
  | k + 6 => omega

/-- C31: the flag is for administrators only. -/
theorem C31_ignore_admin (lib : UrlLib) (ircOk : Str → Bool) (st : NwState) (flags : NetFlags)
    (hf : flags.ignoreLimit = true) (name : Str) (cur db : Option Nat) (ok : Bool) :
    nwStep lib ircOk st (.svcCreate false flags db) = (st, false) ∧
    nwStep lib ircOk st (.svcUpdate false name cur flags ok) = (st, false) := by
  constructor
  · simp only [nwStep, hf]; split <;> rfl
  · simp only [nwStep, hf]; split <;> rfl

/-- C31: a refused request changes nothing. -/
theorem C31_refused (lib : UrlLib) (ircOk : Str → Bool) (st : NwState) (op : NwOp)
    (h : (nwStep lib ircOk st op).2 = false) : (nwStep lib ircOk st op).1 = st := by
  have key : ∀ o : Option NwState, (nwResult st o).2 = false → (nwResult st o).1 = st := by
    intro o; cases o <;> simp [nwResult]
  cases op with
  | login name nick r db =>
    simp only [nwStep] at h ⊢
    split at h
    · simp at h
    rename_i hn
    split at h
    · rename_i hs; simp [hs]
    rename_i hs
    split at h
    · simp at h
    rename_i hg
    simp [hn, hs]
    exact key _ h
  | setNick id nick ok => cases ok <;> simp [nwStep] at h ⊢
  | setSasl => simp [nwStep] at h
  | setUser => simp [nwStep] at h
  | setCfgMax => simp [nwStep] at h
  | svcCreate => exact key _ h
  | svcUpdate => exact key _ h
  | svcDelete => exact key _ h
  | bncAdd => exact key _ h
  | bncChange => exact key _ h
  | bncDelete => exact key _ h
  | setRealname _ _ capable _ =>
    cases capable with
    | true => rfl
    | false => exact key _ h
  | refresh => exact key _ h

example : (nwStep exUrlLib (fun _ => true) (nwRun exUrlLib (fun _ => true) exNwUser (exNwOps.take 2))
    (.svcCreate false { addr := some b!"other" } (some 3))).2 = false := by decide +kernel

/-- C31: the limit refuses nothing else: a valid network can be created as an enabled one exactly when the
number of enabled networks is below the limit. -/
theorem C31_exact (lib : UrlLib) (st : NwState) (n : Nat) (hl : LimitIs st n) (r : NetRec) (id : Nat)
    (hc : checkNetwork lib st r = true) (he : r.enabled = true) (h0 : id ≠ 0)
    (hf : ∀ m ∈ st.networks, m.id ≠ id) :
    (createNetwork lib st r true (some id)).isSome ↔ enabledNumber st < n := by
  rw [← canEnable_lt hl]
  have : (getNetworkByID st id).isSome = false := by
    simp [getNetworkByID]; exact hf
  unfold createNetwork
  simp only [hc, he, this]
  cases canEnableNewNetwork st <;> simp [h0]

example : checkNetwork exUrlLib exNwUser { addr := b!"irc.libera.chat:6697" } = true ∧ LimitIs exNwUser 2 := by
  unfold LimitIs; decide +kernel

/-! ## C32 -/

theorem netUrl_of_check {lib : UrlLib} {st : NwState} {r : NetRec} (h : checkNetwork lib st r = true) :
    ∃ u, netUrl lib r.addr = some u ∧ checkUrl st.admin u = true := by
  unfold checkNetwork at h
  split at h
  · simp at h
  · rename_i u hu
    simp at h
    exact ⟨u, hu, by grind⟩

theorem netUrl_parse {lib : UrlLib} {addr : Str} {u : Url} (h : netUrl lib addr = some u) :
    ∃ v, urlParse lib (fullAddr addr) = some v ∧
      u = (if v.scheme = b!"irc+unix" ∨ v.scheme = b!"unix" then { v with path := v.host ++ v.path, host := [] } else v) := by
  unfold netUrl at h
  simp only at h
  have hf : (if (cutStr b!"://" addr).isNone = true then b!"ircs://" ++ addr else addr) = fullAddr addr := by
    unfold fullAddr
    cases cutStr b!"://" addr <;> rfl
  rw [hf] at h
  split at h
  · simp at h
  · rename_i v hv
    refine ⟨v, hv, ?_⟩
    split at h <;> rename_i hs <;> injection h with h <;> rw [← h]
    · rw [if_pos hs]
    · rw [if_neg hs]

/-- C32: an address accepted for a user who is not an administrator has the form `scheme://host`, with
scheme "ircs" or "irc+insecure", a non-empty host and neither credentials, path, query nor fragment, and
the bouncer will dial this host over TCP. -/
theorem C32_accepted (lib : UrlLib) (st : NwState) (r : NetRec) (ha : st.admin = false)
    (h : checkNetwork lib st r = true) :
    ∃ scheme host tail h, fullAddr r.addr = scheme ++ b!"://" ++ host ++ tail ∧
      (asciiLower scheme = b!"ircs" ∨ asciiLower scheme = b!"irc+insecure") ∧
      (∀ c ∈ host, c ≠ 47 ∧ c ≠ 63 ∧ c ≠ 35 ∧ c ≠ 64) ∧
      (tail = [] ∨ tail = b!"?" ∨ tail = b!"#" ∨ tail = b!"?#") ∧
      lib.parseHost host = some h ∧ h ≠ [] ∧
      (dialTarget lib r.addr = some (.tls h) ∨ dialTarget lib r.addr = some (.plain h)) := by
  obtain ⟨u, hu, hc⟩ := netUrl_of_check h
  obtain ⟨v, hv, huv⟩ := netUrl_parse hu
  rw [ha] at hc
  unfold checkUrl at hc
  have hsc : (u.scheme = b!"ircs" ∨ u.scheme = b!"irc+insecure") := by
    repeat' split at hc
    all_goals simp at hc
    assumption
  have hvs : v.scheme = u.scheme := by rw [huv]; split <;> rfl
  have huv' : u = v := by
    rw [huv, if_neg]
    rw [hvs]
    rcases hsc with h | h <;> rw [h] <;> decide
  subst huv'
  rw [if_pos hsc] at hc
  repeat' split at hc
  all_goals simp at hc
  rename_i h1 h2 h3
  simp at h1 h2 h3
  obtain ⟨sch, rest, tail, e1, e2, e3, e4, e5, e6⟩ :=
    (urlParse_parts hv (by rcases hsc with h | h <;> rw [h] <;> decide) h2 h1 h3).parts
  rcases e6 with e6 | ⟨auth, path, f1, f2, f3, f4, f5, f6⟩
  · exact absurd e6.2.1 hc.1
  · rw [hc.2] at f5
    have := pctDecode_nil f5
    subst this
    simp at f1
    refine ⟨sch, auth, tail, u.host, ?_, by rw [e2]; exact hsc, ?_, e5, f4, hc.1, ?_⟩
    · rw [e1, f1]; simp
    · intro c hc'
      refine ⟨fun h => f2 (h ▸ hc'), fun h => e3 ?_, fun h => e4 ?_, fun h => f3 (h ▸ hc')⟩
      · rw [f1, ← h]; simp [hc']
      · rw [f1, ← h]; simp [hc']
    · unfold dialTarget
      simp only [hu]
      rcases hsc with h | h
      · exact .inl (by rw [if_pos h])
      · refine .inr ?_
        rw [if_neg (by rw [h]; decide), if_pos h]

example : checkNetwork exUrlLib exNwUser { addr := b!"irc+insecure://irc.libera.chat:6667" } = true ∧
    dialTarget exUrlLib b!"irc+insecure://irc.libera.chat:6667" = some (.plain b!"irc.libera.chat:6667") := by
  decide +kernel

private theorem takeWhile_slash (a p : Str) (hna : 47 ∉ a) (hp : p = [] ∨ ∃ q, p = 47 :: q) :
    (a ++ p).takeWhile (fun c => decide (c ≠ 47)) = a := by
  induction a with
  | nil => rcases hp with h | ⟨q, h⟩ <;> subst h <;> simp
  | cons c a ih =>
    simp only [List.mem_cons, not_or] at hna
    simp only [List.cons_append, List.takeWhile_cons]
    rw [if_pos (by simpa using fun h => hna.1 h.symm), ih hna.2]

/-- C32: whoever the user is, an accepted address has one of the four supported schemes, no credentials, no
query and no fragment; the unix ones have a path. -/
theorem C32_accepted_any (lib : UrlLib) (st : NwState) (r : NetRec) (h : checkNetwork lib st r = true) :
    ∃ scheme rest tail, fullAddr r.addr = scheme ++ b!":" ++ rest ++ tail ∧
      asciiLower scheme ∈ [b!"ircs", b!"irc+insecure", b!"irc+unix", b!"unix"] ∧
      (∀ c ∈ rest, c ≠ 63 ∧ c ≠ 35) ∧
      (tail = [] ∨ tail = b!"?" ∨ tail = b!"#" ∨ tail = b!"?#") ∧
      (∀ auth path, rest = b!"//" ++ auth ++ path → 47 ∉ auth → (path = [] ∨ ∃ p, path = 47 :: p) →
        64 ∉ auth) ∧
      (asciiLower scheme ∈ [b!"irc+unix", b!"unix"] → st.admin = true ∧
        ∃ p, p ≠ [] ∧ dialTarget lib r.addr = some (.unix p)) := by
  obtain ⟨u, hu, hc⟩ := netUrl_of_check h
  obtain ⟨v, hv, huv⟩ := netUrl_parse hu
  have hvs : v.scheme = u.scheme := by rw [huv]; split <;> rfl
  have hvq : v.rawQuery = u.rawQuery ∧ v.user = u.user ∧ v.fragment = u.fragment := by rw [huv]; split <;> simp
  have hall : u.user = false ∧ u.rawQuery = [] ∧ u.fragment = [] ∧
      u.scheme ∈ [b!"ircs", b!"irc+insecure", b!"irc+unix", b!"unix"] ∧
      ((u.scheme = b!"irc+unix" ∨ u.scheme = b!"unix") → st.admin = true ∧ u.path ≠ []) := by
    unfold checkUrl at hc
    split at hc
    · simp at hc
    rename_i c1
    split at hc
    · simp at hc
    rename_i c2
    split at hc
    · simp at hc
    rename_i c3
    refine ⟨by simpa using c1, by simpa using c2, by simpa using c3, ?_⟩
    split at hc
    · rename_i c4
      rcases c4 with h | h <;> rw [h] <;> exact ⟨by decide, fun h => absurd h (by decide)⟩
    split at hc
    · rename_i c4
      simp only [Bool.and_eq_true, decide_eq_true_eq] at hc
      refine ⟨?_, fun _ => ⟨hc.1.1, hc.2⟩⟩
      rcases c4 with h | h <;> rw [h] <;> decide
    · simp at hc
  obtain ⟨g1, g2, g3, g4, g5⟩ := hall
  have hne : v.scheme ≠ [] := by
    rw [hvs]; intro h0; rw [h0] at g4; revert g4; decide
  obtain ⟨sch, rest, tail, e1, e2, e3, e4, e5, e6⟩ :=
    (urlParse_parts hv hne (by rw [hvq.1, g2]) (by rw [hvq.2.1, g1]) (by rw [hvq.2.2, g3])).parts
  refine ⟨sch, rest, tail, by simpa using e1, by rw [e2, hvs]; exact g4, ?_, e5, ?_, ?_⟩
  · intro c hc'
    exact ⟨fun h => e3 (h ▸ hc'), fun h => e4 (h ▸ hc')⟩
  · intro auth path hr hna hp
    rcases e6 with e6 | ⟨auth', path', f1, f2, f3, f4, f5, f6⟩
    · have := e6.1
      rw [hr] at this
      simp [hasPrefix, List.isPrefixOf] at this
    · rw [hr] at f1
      simp at f1
      have : auth = auth' := by
        have t1 := takeWhile_slash auth path hna hp
        have t2 := takeWhile_slash auth' path' f2 f6
        rw [← t1, ← t2, f1]
      rw [this]; exact f3
  · intro hs
    rw [e2, hvs] at hs
    have hs' : u.scheme = b!"irc+unix" ∨ u.scheme = b!"unix" := by simpa using hs
    refine ⟨(g5 hs').1, u.path, (g5 hs').2, ?_⟩
    unfold dialTarget
    simp only [hu]
    rw [if_neg (by rcases hs' with h | h <;> rw [h] <;> decide), if_neg (by rcases hs' with h | h <;> rw [h] <;> decide),
      if_pos hs']

example : checkNetwork exUrlLib { exNwUser with admin := true } { addr := b!"unix:///run/ircd" } = true ∧
    checkNetwork exUrlLib exNwUser { addr := b!"unix:///run/ircd" } = false ∧
    checkNetwork exUrlLib exNwUser { addr := b!"UNIX:/run/a://b" } = false ∧
    checkNetwork exUrlLib exNwUser { addr := b!"ircs://me:pw@irc.libera.chat" } = false ∧
    checkNetwork exUrlLib exNwUser { addr := b!"ircs://irc.libera.chat/x" } = false ∧
    checkNetwork exUrlLib exNwUser { addr := b!"ircs://irc.libera.chat#x" } = false ∧
    checkNetwork exUrlLib exNwUser { addr := b!"http://irc.libera.chat" } = false := by decide +kernel

private theorem admin_step {lib : UrlLib} {ircOk : Str → Bool} {st : NwState} {op : NwOp} (ha : st.admin = false)
    (hp : nwPromotes op = false) : (nwStep lib ircOk st op).1.admin = false := by
  have key : ∀ o : Option NwState, (∀ s, o = some s → s.admin = st.admin) → (nwResult st o).1.admin = false := by
    intro o h; cases o with
    | none => exact ha
    | some s => simp [nwResult, h s rfl, ha]
  have hcr : ∀ r e db s, createNetwork lib st r e db = some s → s.admin = st.admin := by
    intro r e db s h
    unfold createNetwork at h
    repeat' split at h
    all_goals simp at h
    subst h; rfl
  have hup : ∀ r e ok s, updateNetwork lib st r e ok = some s → s.admin = st.admin := by
    intro r e ok s h
    unfold updateNetwork at h
    simp only at h
    split at h
    · simp at h
    generalize (if r.nick = st.nick then { r with nick := [] } else r) = r1 at h
    generalize (if r1.realname = st.realname then { r1 with realname := [] } else r1) = r2 at h
    repeat' split at h
    all_goals simp at h
    all_goals (subst h; rfl)
  have hdel : ∀ id ok s, deleteNetwork st id ok = some s → s.admin = st.admin := by
    intro id ok s h
    unfold deleteNetwork at h
    split at h <;> simp at h
    subst h; rfl
  cases op with
  | setUser n r a m => exact hp
  | setCfgMax => exact ha
  | setSasl => exact ha
  | setNick id nick ok => simp only [nwStep]; split <;> exact ha
  | login name nick r db =>
    simp only [nwStep]
    split
    · exact ha
    split
    · exact ha
    split
    · exact ha
    apply key; intro s h
    split at h
    · exact hcr _ _ _ _ h
    · simp at h
  | svcCreate =>
    apply key; intro s h
    repeat' split at h
    all_goals simp [Option.bind_eq_some_iff] at h
    obtain ⟨r, _, h⟩ := h; exact hcr _ _ _ _ h
  | svcUpdate =>
    apply key; intro s h
    repeat' split at h
    all_goals simp [Option.bind_eq_some_iff] at h
    obtain ⟨r, _, h⟩ := h; exact hup _ _ _ _ h
  | svcDelete =>
    apply key; intro s h
    repeat' split at h
    · simp at h
    · exact hdel _ _ _ h
  | bncAdd =>
    apply key; intro s h
    simp [Option.bind_eq_some_iff] at h
    obtain ⟨r, _, h⟩ := h; exact hcr _ _ _ _ h
  | bncChange =>
    apply key; intro s h
    repeat' split at h
    all_goals simp [Option.bind_eq_some_iff] at h
    obtain ⟨r, _, h⟩ := h; exact hup _ _ _ _ h
  | bncDelete =>
    apply key; intro s h
    repeat' split at h
    · simp at h
    · exact hdel _ _ _ h
  | setRealname _ _ capable _ =>
    cases capable with
    | true => exact ha
    | false =>
    apply key; intro s h
    split at h
    · simp at h
    · exact hup _ _ _ _ h
  | refresh =>
    apply key; intro s h
    split at h
    · simp at h
    · exact hup _ _ _ _ h

private theorem unix_eff {lib : UrlLib} {lim : Bool} {st st' : NwState} (ha : st.admin = false)
    (e : Eff lib lim st st') (n : NetRec) (hn : n ∈ st'.networks) (p : Str)
    (hd : dialTarget lib n.addr = some (.unix p)) : ∃ m ∈ st.networks, m.id = n.id ∧ m.addr = n.addr := by
  have bad : ∀ r : NetRec, r.addr = n.addr → checkNetwork lib st r = true → False := by
    intro r hr hc
    obtain ⟨_, _, _, h, _, _, _, _, _, _, h1⟩ := C32_accepted lib st r ha hc
    rw [hr, hd] at h1
    simp at h1
  cases e with
  | same h => exact ⟨n, h ▸ hn, rfl, rfl⟩
  | create r hp h0 hf hc hl =>
    rcases List.mem_cons.1 (hp.mem_iff.1 hn) with h | h
    · subst h; exact (bad { n with id := 0 } rfl hc).elim
    · exact ⟨n, h, rfl, rfl⟩
  | update old r rest h1 h2 hid hc hl =>
    rcases List.mem_cons.1 (h2.mem_iff.1 hn) with h | h
    · subst h; exact (bad _ rfl hc).elim
    · exact ⟨n, h1.mem_iff.2 (by simp [h]), rfl, rfl⟩
  | delete old h => exact ⟨n, h.mem_iff.2 (by simp [hn]), rfl, rfl⟩
  | edit f h hf =>
    rw [h] at hn
    obtain ⟨m, hm, rfl⟩ := List.mem_map.1 hn
    exact ⟨m, hm, (hf m).1.symm, (hf m).2.1.symm⟩

/-- C32: as long as a user is not an administrator, whatever they do, a network of theirs for which the
bouncer dials a local socket is one they had before, with the same address. -/
theorem C32_history (lib : UrlLib) (ircOk : Str → Bool) (st : NwState) (ops : List NwOp) (w : NwIds st)
    (ha : st.admin = false) (hp : ∀ op ∈ ops, nwPromotes op = false) (n : NetRec)
    (hn : n ∈ (nwRun lib ircOk st ops).networks) (p : Str) (hd : dialTarget lib n.addr = some (.unix p)) :
    ∃ m ∈ st.networks, m.id = n.id ∧ m.addr = n.addr := by
  induction ops generalizing st with
  | nil => exact ⟨n, hn, rfl, rfl⟩
  | cons op ops ih =>
    have e := nwStep_eff lib ircOk st op w
    obtain ⟨m, hm, h1, h2⟩ := ih _ (nwIds_eff w e) (admin_step ha (hp op (by simp)))
      (fun o ho => hp o (by simp [ho])) hn
    obtain ⟨m', hm', h3, h4⟩ := unix_eff ha e m hm p (by rw [h2]; exact hd)
    exact ⟨m', hm', h3.trans h1, h4.trans h2⟩

/-- An administrator's local network survives the loss of the privilege; another one cannot be added. -/
example :
    let st := nwRun exUrlLib (fun _ => true) { exNwUser with admin := true }
      [.svcCreate true { addr := some b!"unix:///run/ircd" } (some 1), .setUser b!"alice" [] false (-1)]
    st.admin = false ∧ (∃ n ∈ st.networks, dialTarget exUrlLib n.addr = some (.unix b!"/run/ircd")) ∧
    (nwStep exUrlLib (fun _ => true) st (.bncAdd [] { host := some b!"unix:///run/x" } (some 2))).2 = false := by
  decide +kernel

end Verif.Props
