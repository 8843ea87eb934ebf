import Verif.Model.Names
import Verif.Proof.Util

/-! # C112: the servers know the nick and the real name that are set -/

namespace Verif.Props

open Verif.Model Verif.Proof

/-! ## Specification -/

/-- The first of these that is not empty. -/
def firstGiven (l : List Str) : Str := (l.find? (fun s => s ≠ [])).getD []

/-- The nick that is set for the network: its own as it is stored, else that of the account, else the name of the account. -/
def setNick (st : NmState) (n : NmNet) : Str := firstGiven [n.storedNick, st.nick, st.username]

/-- The real name that is set for the network: its own as it is stored, else that of the account, else the nick. -/
def setReal (st : NmState) (n : NmNet) : Str := firstGiven [n.storedReal, st.real, n.storedNick, st.nick, st.username]

/-- An event that does not hit one of the gaps shown below:
* the account gets another nick while no server that is to hear of it is registering, and none of them knows the nick as the real name,
  unless the real name changes too; updates of networks do not fail;
* a client changes the nick while the connection is not registering and the server does not know the nick as the real name;
* a client does not change the real name over SETNAME of the server. -/
def CalmNames (st : NmState) : NmOp → Prop
  | .userUpdate nick real enabled dbOk ok =>
    dbOk = true → (∀ n ∈ st.nets, ok n.id = true) ∧
      (nick ≠ st.nick → ∀ n ∈ st.nets, n.storedNick = [] → ∀ c, n.conn = some c →
        c.up = true ∧ (n.storedReal ≠ [] ∨ real ≠ [] ∨ real ≠ st.real ∨ enabled ≠ st.enabled))
  | .cNick id _ _ => ∀ n ∈ st.nets, n.id = id → ∀ c, n.conn = some c → c.up = true ∧ (n.storedReal ≠ [] ∨ st.real ≠ [])
  | .cSetname id known real _ => known ≠ real → ∀ n ∈ st.nets, n.id = id → ∀ c, n.conn = some c → c.up = true → c.setname = false
  | _ => True

/-- A history of such events. -/
def CalmHistory (st : NmState) (ops : List NmOp) : Prop :=
  ∀ pre op post, ops = pre ++ op :: post → CalmNames (nmRun st pre) op

/-! ## Lemmas -/

private theorem nm_nick (st : NmState) (n : NmNet) : nmNick st n = firstGiven [n.nick, st.nick, st.username] := by
  unfold nmNick firstGiven
  by_cases h1 : n.nick = [] <;> by_cases h2 : st.nick = [] <;> by_cases h3 : st.username = [] <;> simp [h1, h2, h3]

private theorem nm_real (st : NmState) (n : NmNet) :
    nmReal st n = firstGiven [n.real, st.real, n.nick, st.nick, st.username] := by
  unfold nmReal
  rw [nm_nick]
  unfold firstGiven
  by_cases h1 : n.real = [] <;> by_cases h2 : st.real = [] <;> simp [h1, h2]

private theorem nm_wiped (x a y b u : Str) :
    firstGiven [if x = a then [] else x, a, if y = b then [] else y, b, u] = firstGiven [x, a, y, b, u] := by
  have h2 : firstGiven [if y = b then [] else y, b, u] = firstGiven [y, b, u] := by
    by_cases e : y = b
    · rw [if_pos e, e]
      by_cases e' : b = [] <;> simp [firstGiven, e']
    · rw [if_neg e]
  have hcons : ∀ (s : Str) (l : List Str), firstGiven (s :: l) = if s = [] then firstGiven l else s := by
    intro s l
    by_cases e : s = [] <;> simp [firstGiven, e]
  rw [hcons, hcons a, h2, hcons x, hcons a]
  by_cases e : x = a
  · rw [if_pos e, e]
    by_cases e' : a = [] <;> simp [e']
  · rw [if_neg e]

private structure NmFine (st : NmState) (n : NmNet) : Prop where
  nick : n.nick = n.storedNick
  real : n.real = n.storedReal
  told : ∀ c, n.conn = some c → c.nick = nmNick st n ∧ c.real = nmReal st n

private theorem nm_fine_none {st : NmState} {n : NmNet} (h1 : n.nick = n.storedNick) (h2 : n.real = n.storedReal)
    (h : n.conn = none) : NmFine st n := ⟨h1, h2, fun c hc => by rw [h] at hc; cases hc⟩

private theorem nm_fine_updated (st st' : NmState) (nick real : Str) (n : NmNet) : NmFine st (nmUpdated st' nick real n) :=
  nm_fine_none rfl rfl rfl

private theorem nm_set_mem {st : NmState} {id : Nat} {f : NmNet → NmNet} {n' : NmNet} (h : n' ∈ (nmSet st id f).nets) :
    ∃ n ∈ st.nets, (n.id = id ∧ n' = f n) ∨ (n.id ≠ id ∧ n' = n) := by
  unfold nmSet at h
  obtain ⟨n, hn, rfl⟩ := List.mem_map.mp h
  refine ⟨n, hn, ?_⟩
  by_cases e : n.id = id
  · exact Or.inl ⟨e, by simp [e]⟩
  · exact Or.inr ⟨e, by simp [e]⟩

private theorem nm_fine_step (st : NmState) (op : NmOp) (hc : CalmNames st op) (h : ∀ n ∈ st.nets, NmFine st n) :
    ∀ n ∈ (nmStep st op).1.nets, NmFine (nmStep st op).1 n := by
  have hset : ∀ (id : Nat) (f : NmNet → NmNet), (∀ n ∈ st.nets, n.id = id → NmFine st (f n)) →
      ∀ n ∈ (nmSet st id f).nets, NmFine (nmSet st id f) n := by
    intro id f hf n' hn'
    obtain ⟨n, hn, ⟨e, rfl⟩ | ⟨_, rfl⟩⟩ := nm_set_mem hn'
    · exact ⟨(hf n hn e).nick, (hf n hn e).real, (hf n hn e).told⟩
    · exact ⟨(h n' hn).nick, (h n' hn).real, (h n' hn).told⟩
  have hupd : ∀ (id : Nat) (nick real : Str) (ok : Bool),
      ∀ n ∈ (nmUpdateNetwork st id nick real ok).1.nets, NmFine (nmUpdateNetwork st id nick real ok).1 n := by
    intro id nick real ok
    unfold nmUpdateNetwork
    split
    · exact hset id _ (fun n _ _ => nm_fine_updated _ _ _ _ _)
    · exact h
  cases op with
  | create id nick real ok =>
    unfold nmStep
    dsimp only
    split
    · exact h
    · intro n hn
      rcases List.mem_append.mp hn with hn | hn
      · exact ⟨(h n hn).nick, (h n hn).real, (h n hn).told⟩
      · obtain rfl := List.mem_singleton.mp hn
        exact nm_fine_none rfl rfl rfl
  | delete id ok =>
    unfold nmStep
    dsimp only
    split
    · intro n hn
      have hn := (List.mem_filter.mp hn).1
      exact ⟨(h n hn).nick, (h n hn).real, (h n hn).told⟩
    · exact h
  | dial id =>
    refine hset id _ (fun n hn _ => ?_)
    split
    · exact h n hn
    · refine ⟨(h n hn).nick, (h n hn).real, fun c hc => ?_⟩
      cases hc
      exact ⟨rfl, rfl⟩
  | registered id =>
    refine hset id _ (fun n hn _ => ⟨(h n hn).nick, (h n hn).real, fun c hc => ?_⟩)
    obtain ⟨c', hc', rfl⟩ := Option.map_eq_some_iff.mp hc
    exact (h n hn).told c' hc'
  | caps id s =>
    refine hset id _ (fun n hn _ => ⟨(h n hn).nick, (h n hn).real, fun c hc => ?_⟩)
    obtain ⟨c', hc', rfl⟩ := Option.map_eq_some_iff.mp hc
    exact (h n hn).told c' hc'
  | lost id => exact hset id _ (fun n hn _ => nm_fine_none (h n hn).nick (h n hn).real rfl)
  | userUpdate nick real enabled dbOk ok =>
    unfold nmStep nmUpdateUser
    dsimp only
    cases dbOk with
    | false => exact h
    | true =>
      obtain ⟨hok, hnick⟩ := hc rfl
      rw [if_neg (by simp)]
      -- the state with the new settings, once the nick was told
      generalize hst2 : nmSettings st nick real enabled = st2
      have hu2 : st2.username = st.username := by rw [← hst2]; rfl
      have hn2 : st2.nick = nick := by rw [← hst2]; rfl
      have hr2 : st2.real = real := by rw [← hst2]; rfl
      have hmem : ∀ n ∈ st2.nets, ∃ m ∈ st.nets, n.id = m.id ∧ n.nick = n.storedNick ∧ n.real = n.storedReal ∧ n.nick = m.nick ∧
          n.real = m.real ∧
          ∀ c, n.conn = some c → c.nick = nmNick st2 n ∧
            ((st.real = real ∧ st.enabled = enabled) ∨ n.real ≠ [] → c.real = nmReal st2 n) := by
        intro n hn
        rw [← hst2] at hn
        unfold nmSettings at hn
        dsimp only at hn
        split at hn
        rotate_left
        · rename_i hne
          obtain ⟨m, hm, rfl⟩ := List.mem_map.mp hn
          have hne : nick ≠ st.nick := fun e => hne e.symm
          have hf := h m hm
          unfold nmTellNick
          split
          · rename_i hown
            refine ⟨m, hm, rfl, hf.nick, hf.real, rfl, rfl, fun c hc => ⟨?_, fun hh => ?_⟩⟩
            · rw [(hf.told c hc).1]
              simp [nmNick, hown]
            · rw [(hf.told c hc).2]
              rcases hh with ⟨hr, _⟩ | hr
              · simp [nmReal, nmNick, hown, hr2, hr]
              · simp [nmReal, hr]
          · rename_i hown
            have hown : m.nick = [] := by simpa using hown
            refine ⟨m, hm, rfl, hf.nick, hf.real, rfl, rfl, fun c hc => ?_⟩
            obtain ⟨c', hc', rfl⟩ := Option.map_eq_some_iff.mp hc
            obtain ⟨hup, hreal⟩ := hnick hne m hm (by rw [← hf.nick, hown]) c' hc'
            rw [if_pos hup]
            refine ⟨by simp [nmNick, hown, hn2, hu2], fun hh => ?_⟩
            show c'.real = nmReal st2 _
            rw [(hf.told c' hc').2]
            unfold nmReal
            dsimp only
            rw [hr2]
            rcases hh with ⟨hr, he⟩ | hr
            · rw [← hf.real] at hreal
              rcases hreal with h' | h' | h' | h'
              · simp [h']
              · simp [hr, h']
              · exact absurd hr.symm h'
              · exact absurd he.symm h'
            · have hr : m.real ≠ [] := hr
              simp [hr]
        · rename_i heq
          have hf := h n hn
          refine ⟨n, hn, rfl, hf.nick, hf.real, rfl, rfl, fun c hc => ⟨?_, fun hh => ?_⟩⟩
          · rw [(hf.told c hc).1]
            simp [nmNick, hn2, heq, hu2]
          · rw [(hf.told c hc).2]
            rcases hh with ⟨hr, _⟩ | hr
            · simp [nmReal, nmNick, hn2, heq, hu2, hr2, hr]
            · simp [nmReal, hr]
      split
      · rename_i hch
        intro n hn
        obtain ⟨m, hm, hid, hn_, hr_, hnm, hrm, htold⟩ := hmem n hn
        exact ⟨hn_, hr_, fun c hc => ⟨(htold c hc).1, (htold c hc).2 (Or.inl hch)⟩⟩
      · -- real name or enabled changed
        intro n' hn'
        unfold nmReconnect at hn'
        dsimp only at hn'
        rw [List.map_map] at hn'
        obtain ⟨n, hn, rfl⟩ := List.mem_map.mp hn'
        obtain ⟨m, hm, hid, hn_, hr_, hnm, hrm, htold⟩ := hmem n hn
        have hokn : ok n.id = true := by rw [hid]; exact hok m hm
        unfold nmReconnect
        simp only [Function.comp]
        have hbig : nmTellReal (st.real != real) (st.enabled != enabled) st2 n = (n, true) ∨
            (nmTellReal (st.real != real) (st.enabled != enabled) st2 n = (n, false) ∧ n.real ≠ []) ∨
            ∃ c, n.conn = some c ∧ nmTellReal (st.real != real) (st.enabled != enabled) st2 n =
              ({ n with conn := some { c with real := nmReal st2 n } }, false) := by
          unfold nmTellReal
          split
          · split
            · exact Or.inr (Or.inl ⟨rfl, by assumption⟩)
            · cases hcn : n.conn with
              | none => exact Or.inl rfl
              | some c =>
                dsimp only
                split
                · exact Or.inr (Or.inr ⟨c, rfl, rfl⟩)
                · exact Or.inl rfl
          · exact Or.inl rfl
        rcases hbig with hb | ⟨hb, hreal⟩ | ⟨c, hcn, hb⟩
        · rw [hb]
          dsimp only
          rw [hokn]
          exact nm_fine_updated _ _ _ _ _
        · rw [hb]
          dsimp only
          refine ⟨hn_, hr_, fun c hc => ⟨(htold c hc).1, (htold c hc).2 (Or.inr hreal)⟩⟩
        · rw [hb]
          dsimp only
          refine ⟨hn_, hr_, fun c' hc' => ?_⟩
          cases hc'
          exact ⟨(htold c hcn).1, rfl⟩
  | netUpdate id nick real ok => exact hupd id nick real ok
  | cNick id nick dbOk =>
    unfold nmStep nmClientNick
    dsimp only
    split
    · exact h
    · rename_i hcond
      have hne : nick ≠ [] := fun e => hcond (Or.inl e)
      refine hset id _ (fun n hn e => ?_)
      have hf := h n hn
      refine ⟨rfl, hf.real.trans ?_, fun c hc' => ?_⟩
      · exact hf.real.symm
      · obtain ⟨c', hcn, rfl⟩ := Option.map_eq_some_iff.mp hc'
        obtain ⟨hup, hreal⟩ := hc n hn e c' hcn
        rw [if_pos hup]
        refine ⟨by simp [nmNick, hne], ?_⟩
        show c'.real = _
        rw [(hf.told c' hcn).2]
        rw [← hf.real] at hreal
        unfold nmReal
        dsimp only
        rcases hreal with h' | h'
        · simp [h']
        · simp [h']
  | cSetname id known real ok =>
    unfold nmStep nmClientSetname
    dsimp only
    split
    · exact h
    · rename_i hk
      split
      · exact h
      · rename_i n hfind
        have hn := List.mem_of_find?_eq_some hfind
        have he : n.id = id := by simpa using List.find?_some hfind
        cases hcn : n.conn with
        | none => exact hupd _ _ _ _
        | some c =>
          dsimp only
          have hs := hc hk n hn he c hcn
          have : (c.up && c.setname) = false := by
            cases hu : c.up with
            | false => rfl
            | true => rw [hs hu]; rfl
          rw [this]
          exact hupd _ _ _ _
  | restart =>
    intro n hn
    obtain ⟨m, hm, rfl⟩ := List.mem_map.mp hn
    exact nm_fine_none rfl rfl rfl

private theorem nmRun_snoc (st : NmState) (ops : List NmOp) (op : NmOp) :
    nmRun st (ops ++ [op]) = (nmStep (nmRun st ops) op).1 := by simp [nmRun]

/-! ## Theorems -/

/-- In a history without the gaps shown below, the server of each network has been told the nick and the real name that are
set. -/
theorem C112_told_partial (st : NmState) (hst : st.nets = []) (ops : List NmOp) (hcalm : CalmHistory st ops) :
    ∀ n ∈ (nmRun st ops).nets, ∀ c, n.conn = some c →
      c.nick = setNick (nmRun st ops) n ∧ c.real = setReal (nmRun st ops) n := by
  have key : ∀ n ∈ (nmRun st ops).nets, NmFine (nmRun st ops) n := by
    induction ops using snocInd with
    | nil => simp [nmRun, hst]
    | snoc ops op ih =>
      have h1 := ih (fun pre o post e => hcalm pre o (post ++ [op]) (by simp [e]))
      rw [nmRun_snoc]
      exact nm_fine_step _ op (hcalm ops op [] rfl) h1
  intro n hn c hc
  obtain ⟨h1, h2⟩ := (key n hn).told c hc
  rw [h1, h2, nm_nick, nm_real, (key n hn).nick, (key n hn).real]
  exact ⟨rfl, rfl⟩

/-- A client that is reported to have changed the nick on its network has set it; the server is told if the network is connected.
Otherwise nothing has changed. The other networks are left alone. -/
theorem C112_nick (st : NmState) (id : Nat) (nick : Str) (dbOk : Bool) :
    let r := nmStep st (.cNick id nick dbOk)
    (r.2 = false → r.1 = st) ∧
    (r.2 = true → nick ≠ [] ∧
      ∀ n' ∈ r.1.nets, (n'.id ≠ id → n' ∈ st.nets) ∧
        (n'.id = id → setNick r.1 n' = nick ∧ nmNick r.1 n' = nick ∧ ∀ c, n'.conn = some c → c.up = true → c.nick = nick)) := by
  intro r
  simp only [r]
  unfold nmStep nmClientNick
  dsimp only
  split
  · exact ⟨fun _ => rfl, (fun h => by cases h)⟩
  · rename_i hcond
    have hne : nick ≠ [] := fun e => hcond (Or.inl e)
    refine ⟨(fun h => by cases h), fun _ => ⟨hne, fun n' hn' => ?_⟩⟩
    obtain ⟨n, hn, ⟨e, rfl⟩ | ⟨e, rfl⟩⟩ := nm_set_mem hn'
    · refine ⟨fun h => absurd e h, fun _ => ⟨?_, ?_, fun c hc hup => ?_⟩⟩
      · simp [setNick, firstGiven, hne]
      · simp [nmNick, hne]
      · obtain ⟨c', _, rfl⟩ := Option.map_eq_some_iff.mp hc
        cases hu : c'.up with
        | false => rw [hu] at hup; simp [hu] at hup
        | true => simp
    · exact ⟨fun _ => hn, fun h => absurd h e⟩

/-- A client that is reported to have changed the real name on its network, and did not have it already, has set it (the real
name of the account, or none, stands for that of the account). The server has been told, or the bouncer has to connect again. The
other networks are left alone. -/
theorem C112_setname (st : NmState) (id : Nat) (known real : Str) (ok : Bool)
    (hk : known ≠ real) :
    let r := nmStep st (.cSetname id known real ok)
    r.2 = true →
      ∀ n' ∈ r.1.nets, (n'.id ≠ id → n' ∈ st.nets) ∧
        (n'.id = id → firstGiven [n'.storedReal, r.1.real] = firstGiven [real, st.real] ∧
          ∀ c, n'.conn = some c → c.up = true ∧ c.setname = true ∧ c.real = real) := by
  intro r
  simp only [r]
  have hfirst : firstGiven [if real = st.real then [] else real, st.real] = firstGiven [real, st.real] := by
    by_cases e : real = st.real
    · rw [if_pos e, e]
      by_cases e' : st.real = [] <;> simp [firstGiven, e']
    · rw [if_neg e]
  have hupd : ∀ nick, ∀ n' ∈ (nmUpdateNetwork st id nick (if real = st.real then [] else real) true).1.nets,
      (n'.id ≠ id → n' ∈ st.nets) ∧
        (n'.id = id → firstGiven [n'.storedReal, st.real] = firstGiven [real, st.real] ∧ n'.conn = none) := by
    intro nick n' hn'
    unfold nmUpdateNetwork at hn'
    rw [if_pos rfl] at hn'
    obtain ⟨n, hn, ⟨e, rfl⟩ | ⟨e, rfl⟩⟩ := nm_set_mem hn'
    · refine ⟨fun h => absurd e h, fun _ => ⟨?_, rfl⟩⟩
      unfold nmUpdated
      dsimp only
      rw [← hfirst]
      by_cases e : real = st.real
      · simp [e]
      · simp [e]
    · exact ⟨fun _ => hn, fun h => absurd h e⟩
  have hupd' : ∀ nick, (nmUpdateNetwork st id nick (if real = st.real then [] else real) ok).2 = true →
      ∀ n' ∈ (nmUpdateNetwork st id nick (if real = st.real then [] else real) ok).1.nets,
      (n'.id ≠ id → n' ∈ st.nets) ∧
        (n'.id = id → firstGiven [n'.storedReal, (nmUpdateNetwork st id nick (if real = st.real then [] else real) ok).1.real]
            = firstGiven [real, st.real] ∧
          ∀ c, n'.conn = some c → c.up = true ∧ c.setname = true ∧ c.real = real) := by
    intro nick hr n' hn'
    cases ok with
    | false => cases hr
    | true =>
      obtain ⟨h1, h2⟩ := hupd nick n' hn'
      refine ⟨h1, fun e => ⟨(h2 e).1, fun c hc => ?_⟩⟩
      rw [(h2 e).2] at hc
      cases hc
  unfold nmStep nmClientSetname
  dsimp only
  rw [if_neg hk]
  split
  · intro h; cases h
  · rename_i n hfind
    have hn := List.mem_of_find?_eq_some hfind
    have he : n.id = id := by simpa using List.find?_some hfind
    cases hcn : n.conn with
    | none => exact hupd' _
    | some c =>
      dsimp only
      split
      · rename_i hcap
        intro hok n' hn'
        have hok : ok = true := hok
        subst hok
        obtain ⟨m, hm, ⟨e, rfl⟩ | ⟨e, rfl⟩⟩ := nm_set_mem hn'
        · refine ⟨fun h => absurd e h, fun _ => ⟨hfirst, fun c' hc' => ?_⟩⟩
          cases hc'
          simp only [Bool.and_eq_true] at hcap
          exact ⟨hcap.1, hcap.2, rfl⟩
        · exact ⟨fun _ => hm, fun h => absurd h e⟩
      · exact hupd' _

/-- A network that was updated is connected to with the nick and the real name that were asked for, or those of the account
where none was. The other networks are left alone. -/
theorem C112_network (st : NmState) (id : Nat) (nick real : Str) :
    let st' := nmRun st [.netUpdate id nick real true, .dial id]
    ∀ n' ∈ st'.nets, (n'.id ≠ id → n' ∈ st.nets) ∧
      (n'.id = id → n'.conn = some ⟨firstGiven [nick, st.nick, st.username],
          firstGiven [real, st.real, nick, st.nick, st.username], false, false⟩ ∧
        setNick st' n' = firstGiven [nick, st.nick, st.username] ∧
        setReal st' n' = firstGiven [real, st.real, nick, st.nick, st.username]) := by
  intro st' n' hn'
  simp only [st', nmRun, List.foldl_cons, List.foldl_nil, nmStep, nmUpdateNetwork, if_true] at hn' ⊢
  obtain ⟨n1, hn1, h1⟩ := nm_set_mem hn'
  obtain ⟨n, hn, h2⟩ := nm_set_mem hn1
  have hN : firstGiven [if nick = st.nick then [] else nick, st.nick, st.username] = firstGiven [nick, st.nick, st.username] := by
    by_cases e : nick = st.nick
    · rw [if_pos e, e]
      by_cases e' : st.nick = [] <;> simp [firstGiven, e']
    · rw [if_neg e]
  have hR : firstGiven [if real = st.real then [] else real, st.real, if nick = st.nick then [] else nick, st.nick, st.username]
      = firstGiven [real, st.real, nick, st.nick, st.username] := nm_wiped _ _ _ _ _
  rcases h2 with ⟨e2, rfl⟩ | ⟨e2, rfl⟩
  · have e2' : (nmUpdated st nick real n).id = id := e2
    rcases h1 with ⟨e1, rfl⟩ | ⟨e1, rfl⟩
    · refine ⟨fun h => absurd e2' h, fun _ => ⟨?_, hN, hR⟩⟩
      show some (NmConn.mk _ _ _ _) = _
      rw [nm_nick, nm_real]
      exact congrArg some (by rw [← hN, ← hR]; rfl)
    · exact absurd e2' e1
  · rcases h1 with ⟨e1, rfl⟩ | ⟨e1, rfl⟩
    · exact absurd e1 e2
    · exact ⟨fun _ => hn, fun h => absurd h e2⟩

/-- After a restart the server of each network is told the nick and the real name that are set. -/
theorem C112_restart (st : NmState) (id : Nat) :
    let st' := nmRun st [.restart, .dial id]
    ∀ n ∈ st.nets, n.id = id →
      ⟨id, n.storedNick, n.storedReal, n.storedNick, n.storedReal, some ⟨setNick st n, setReal st n, false, false⟩⟩ ∈ st'.nets := by
  intro st' n hn e
  simp only [st', nmRun, List.foldl_cons, List.foldl_nil, nmStep]
  unfold nmSet
  dsimp only
  rw [List.map_map]
  refine List.mem_map.mpr ⟨n, hn, ?_⟩
  simp only [Function.comp, e, if_true, Option.isSome_none, Bool.false_eq_true, if_false]
  rw [nm_nick, nm_real]
  rfl

private theorem nm_settings_mem {st : NmState} {nick real : Str} {enabled : Bool} {n : NmNet}
    (h : n ∈ (nmSettings st nick real enabled).nets) : ∀ c, n.conn = some c → c.up = true → nick ≠ st.nick → n.nick = [] →
      c.nick = firstGiven [nick, st.username] := by
  intro c hc hup hne hown
  unfold nmSettings at h
  dsimp only at h
  rw [if_neg (fun e => hne e.symm)] at h
  obtain ⟨m, hm, rfl⟩ := List.mem_map.mp h
  unfold nmTellNick at hc hown
  split at hc
  · rename_i hm'
    rw [if_pos hm'] at hown
    exact absurd hown hm'
  · rename_i hm'
    rw [if_neg hm'] at hown
    obtain ⟨c', _, rfl⟩ := Option.map_eq_some_iff.mp hc
    have hu : c'.up = true := by
      cases hu : c'.up with
      | true => rfl
      | false => rw [hu] at hup; simp [hu] at hup
    rw [if_pos hu]
    have hm' : m.nick = [] := by simpa using hm'
    show nmNick _ _ = _
    rw [nm_nick]
    simp [firstGiven, hm']

/-- When the nick or the real name of the account changes, the server of a connected network without a nick of its own is told the
nick; the server of one without a real name of its own is told the real name, or the bouncer has to connect again. -/
theorem C112_account (st : NmState) (nick real : Str) (enabled : Bool) (ok : Nat → Bool) :
    let r := nmStep st (.userUpdate nick real enabled true ok)
    r.1.nick = nick ∧ r.1.real = real ∧ r.1.username = st.username ∧
    (r.2 = true → ∀ n' ∈ r.1.nets, ∀ c, n'.conn = some c → c.up = true →
      (nick ≠ st.nick → n'.nick = [] → c.nick = firstGiven [nick, st.username]) ∧
      (real ≠ st.real → n'.real = [] → c.real = firstGiven [real, n'.nick, nick, st.username])) := by
  intro r
  simp only [r]
  unfold nmStep nmUpdateUser
  dsimp only
  rw [if_neg (by simp)]
  split
  · rename_i hsame
    refine ⟨rfl, rfl, rfl, fun _ n' hn' c hc hup => ⟨fun h1 h2 => nm_settings_mem hn' c hc hup h1 h2, fun h => ?_⟩⟩
    exact absurd hsame.1.symm h
  · refine ⟨rfl, rfl, rfl, fun hok n' hn' c hc hup => ?_⟩
    unfold nmReconnect at hok hn'
    dsimp only at hok hn'
    rw [List.map_map] at hn'
    obtain ⟨n, hn, rfl⟩ := List.mem_map.mp hn'
    have hokn := List.all_eq_true.mp hok _ (List.mem_map.mpr ⟨n, hn, rfl⟩)
    simp only [Function.comp] at hc hokn ⊢
    have hnick := nm_settings_mem hn
    have hbig : (nmTellReal (st.real != real) (st.enabled != enabled) (nmSettings st nick real enabled) n).2 = true ∨
        (nmTellReal (st.real != real) (st.enabled != enabled) (nmSettings st nick real enabled) n = (n, false) ∧ n.real ≠ []) ∨
        ∃ c, n.conn = some c ∧ nmTellReal (st.real != real) (st.enabled != enabled) (nmSettings st nick real enabled) n =
          ({ n with conn := some { c with real := nmReal (nmSettings st nick real enabled) n } }, false) := by
      unfold nmTellReal
      split
      · split
        · exact Or.inr (Or.inl ⟨rfl, by assumption⟩)
        · cases hcn : n.conn with
          | none => exact Or.inl rfl
          | some c =>
            dsimp only
            split
            · exact Or.inr (Or.inr ⟨c, rfl, rfl⟩)
            · exact Or.inl rfl
      · exact Or.inl rfl
    rcases hbig with hb | ⟨hb, hreal⟩ | ⟨c', hcn, hb⟩
    · rw [hb] at hokn hc
      simp only [Bool.not_true, Bool.false_or] at hokn
      rw [hokn] at hc
      cases hc
    · rw [hb] at hc ⊢
      dsimp only at hc ⊢
      exact ⟨fun h1 h2 => hnick c hc hup h1 h2, fun _ h => absurd h hreal⟩
    · rw [hb] at hc ⊢
      dsimp only at hc ⊢
      cases hc
      refine ⟨fun h1 h2 => hnick c' hcn hup h1 h2, fun _ h => ?_⟩
      show nmReal _ _ = _
      rw [nm_real]
      have h : n.real = [] := h
      rw [h]
      rfl

/-- Networks with a nick and a real name of their own are not disturbed by a change of those of the account. -/
theorem C112_own (st : NmState) (nick real : Str) (dbOk : Bool) (ok : Nat → Bool) (n : NmNet) (hn : n ∈ st.nets)
    (h1 : n.nick ≠ []) (h2 : n.real ≠ []) : n ∈ (nmStep st (.userUpdate nick real st.enabled dbOk ok)).1.nets := by
  have hset : n ∈ (nmSettings st nick real st.enabled).nets := by
    unfold nmSettings
    dsimp only
    split
    · exact hn
    · refine List.mem_map.mpr ⟨n, hn, ?_⟩
      simp [nmTellNick, h1]
  unfold nmStep nmUpdateUser
  dsimp only
  split
  · exact hn
  · split
    · exact hset
    · rename_i hne
      have hr : st.real ≠ real := fun e => hne ⟨e, rfl⟩
      unfold nmReconnect
      dsimp only
      rw [List.map_map]
      refine List.mem_map.mpr ⟨n, hset, ?_⟩
      simp [Function.comp, nmTellReal, h2, hr]

/-! ## Cases that meet the hypotheses -/

private def nmNew : NmState := ⟨b!"ann", [], [], true, []⟩

/-- The nick and the real name of the account change while one network is connected, a second with SETNAME and a third has
settings of its own. -/
private def nmCase : List NmOp :=
  [.create 1 [] b!"A" true, .create 2 [] [] true, .create 3 b!"eve" b!"Eve" true, .dial 1, .registered 1, .dial 2, .registered 2,
   .caps 2 true, .dial 3, .userUpdate b!"bob" b!"Bob" true true (fun _ => true), .cNick 1 b!"zed" true,
   .cSetname 1 b!"A" b!"Z" true, .dial 1]

example : (nmRun nmNew nmCase).nets.map (fun n => (n.id, n.storedNick, n.storedReal, n.conn)) =
    [(1, b!"zed", b!"Z", some ⟨b!"zed", b!"Z", false, false⟩), (2, [], [], some ⟨b!"bob", b!"Bob", true, true⟩),
     (3, b!"eve", b!"Eve", some ⟨b!"eve", b!"Eve", false, false⟩)] := by decide +kernel

private instance nmCalmDec (st : NmState) (op : NmOp) : Decidable (CalmNames st op) :=
  match op with
  | .userUpdate nick real enabled dbOk ok =>
    decidable_of_iff (dbOk = true → (∀ n ∈ st.nets, ok n.id = true) ∧
      (nick ≠ st.nick → ∀ n ∈ st.nets, n.storedNick = [] → ∀ c ∈ n.conn.toList,
        c.up = true ∧ (n.storedReal ≠ [] ∨ real ≠ [] ∨ real ≠ st.real ∨ enabled ≠ st.enabled))) (by simp [CalmNames])
  | .cNick id _ _ =>
    decidable_of_iff (∀ n ∈ st.nets, n.id = id → ∀ c ∈ n.conn.toList, c.up = true ∧ (n.storedReal ≠ [] ∨ st.real ≠ []))
      (by simp [CalmNames])
  | .cSetname id known real _ =>
    decidable_of_iff (known ≠ real → ∀ n ∈ st.nets, n.id = id → ∀ c ∈ n.conn.toList, c.up = true → c.setname = false)
      (by simp [CalmNames])
  | .create _ _ _ _ => .isTrue trivial
  | .delete _ _ => .isTrue trivial
  | .dial _ => .isTrue trivial
  | .registered _ => .isTrue trivial
  | .caps _ _ => .isTrue trivial
  | .lost _ => .isTrue trivial
  | .netUpdate _ _ _ _ => .isTrue trivial
  | .restart => .isTrue trivial

private def calmAll (st : NmState) : List NmOp → Bool
  | [] => true
  | op :: ops => decide (CalmNames st op) && calmAll (nmStep st op).1 ops

private theorem calmAll_spec (ops : List NmOp) : ∀ st, calmAll st ops = true → CalmHistory st ops := by
  induction ops with
  | nil => intro st _ pre op post e; simp at e
  | cons o ops ih =>
    intro st h pre op post e
    simp only [calmAll, Bool.and_eq_true, decide_eq_true_eq] at h
    cases pre with
    | nil =>
      simp only [List.nil_append, List.cons.injEq] at e
      rw [← e.1]
      exact h.1
    | cons p pre =>
      simp only [List.cons_append, List.cons.injEq] at e
      rw [← e.1]
      exact ih _ h.2 pre op post e.2

example : CalmHistory nmNew nmCase := calmAll_spec _ _ (by decide +kernel)

example : (nmStep (nmRun nmNew nmCase) (.cNick 2 b!"al" true)).2 = true ∧
    (nmStep (nmRun nmNew nmCase) (.cSetname 2 b!"Bob" b!"Al" true)).2 = true ∧
    (nmStep (nmRun nmNew nmCase) (.userUpdate b!"al" b!"Al" true true (fun _ => true))).2 = true := by decide +kernel

/-! ## What does not hold -/

/-- The nick changes while a connection is registering: the server is never told. -/
theorem C112_registering_violated : ∃ (ops : List NmOp) (n : NmNet) (c : NmConn),
    n ∈ (nmRun nmNew ops).nets ∧ n.conn = some c ∧ c.up = true ∧ c.nick = b!"ann" ∧ setNick (nmRun nmNew ops) n = b!"bob" :=
  ⟨[.create 1 [] b!"A" true, .dial 1, .userUpdate b!"bob" [] true true (fun _ => true), .registered 1],
   ⟨1, [], b!"A", [], b!"A", some ⟨b!"ann", b!"A", true, false⟩⟩, ⟨b!"ann", b!"A", true, false⟩, by decide +kernel⟩

/-- A client changes the real name over SETNAME of the server; once the bouncer has connected again, the server is told the old
one. -/
theorem C112_setname_violated : ∃ (ops : List NmOp) (n : NmNet) (c : NmConn),
    let ops := ops ++ [.cSetname 1 b!"A" b!"B" true, .lost 1, .dial 1]
    n ∈ (nmRun nmNew ops).nets ∧ n.conn = some c ∧ c.real = b!"A" ∧ setReal (nmRun nmNew ops) n = b!"B" :=
  ⟨[.create 1 [] b!"A" true, .dial 1, .registered 1, .caps 1 true],
   ⟨1, [], b!"A", [], b!"B", some ⟨b!"ann", b!"A", false, false⟩⟩, ⟨b!"ann", b!"A", false, false⟩, by decide +kernel⟩

/-- A client changes the real name over SETNAME of the server, and then the nick: the real name that was set is lost. -/
theorem C112_setname_lost_violated : ∃ (ops : List NmOp) (n : NmNet),
    (nmStep (nmRun nmNew ops) (.cSetname 1 b!"A" b!"B" true)).2 = true ∧
    n ∈ (nmRun nmNew (ops ++ [.cSetname 1 b!"A" b!"B" true, .cNick 1 b!"bob" true])).nets ∧ n.storedReal = b!"A" :=
  ⟨[.create 1 [] b!"A" true, .dial 1, .registered 1, .caps 1 true],
   ⟨1, b!"bob", b!"A", b!"bob", b!"A", some ⟨b!"bob", b!"B", true, true⟩⟩, by decide +kernel⟩

/-- Without a real name that is set, the nick is used; when the nick changes, the server is told the nick but not the real name. -/
theorem C112_follows_violated : ∃ (ops : List NmOp) (n : NmNet) (c : NmConn),
    n ∈ (nmRun nmNew ops).nets ∧ n.conn = some c ∧ c.nick = b!"bob" ∧ c.real = b!"ann" ∧ setReal (nmRun nmNew ops) n = b!"bob" :=
  ⟨[.create 1 [] [] true, .dial 1, .registered 1, .caps 1 true, .cNick 1 b!"bob" true],
   ⟨1, b!"bob", [], b!"bob", [], some ⟨b!"bob", b!"ann", true, true⟩⟩, ⟨b!"bob", b!"ann", true, true⟩, by decide +kernel⟩

/-- A client's SETNAME fails, as the setting cannot be stored, but the server has been told. -/
theorem C112_failed_violated : ∃ (ops : List NmOp) (n : NmNet) (c : NmConn),
    let r := nmStep (nmRun nmNew ops) (.cSetname 1 b!"A" b!"B" false)
    r.2 = false ∧ n ∈ r.1.nets ∧ n.conn = some c ∧ c.real = b!"B" ∧ setReal r.1 n = b!"A" :=
  ⟨[.create 1 [] b!"A" true, .dial 1, .registered 1, .caps 1 true],
   ⟨1, [], b!"A", [], b!"A", some ⟨b!"ann", b!"B", true, true⟩⟩, ⟨b!"ann", b!"B", true, true⟩, by decide +kernel⟩

end Verif.Props
