import Verif.Model.Creds

/-! # C51: saved credentials -/

namespace Verif.Props
open Verif.Model

/-! ## Specification -/

/-- The text, sent to the services bot by a user with that nick, carries an account and a password:
`REGISTER <password> …`, `IDENTIFY <password>`, `IDENTIFY <account> <password> …` or
`SET PASSWORD <password>`. -/
inductive Carries (nick text : Str) : Str → Str → Prop
  | register {cmd pass : Str} {rest : List Str} (h : fields text = cmd :: pass :: rest)
      (hc : asciiUpper cmd = b!"REGISTER") : Carries nick text nick pass
  | identify {cmd pass : Str} (h : fields text = [cmd, pass]) (hc : asciiUpper cmd = b!"IDENTIFY") :
      Carries nick text nick pass
  | identifyAccount {cmd account pass : Str} {rest : List Str} (h : fields text = cmd :: account :: pass :: rest)
      (hc : asciiUpper cmd = b!"IDENTIFY") : Carries nick text account pass
  | setPassword {cmd what pass : Str} (h : fields text = [cmd, what, pass]) (hc : asciiUpper cmd = b!"SET")
      (hw : asciiUpper what = b!"PASSWORD") : Carries nick text nick pass

/-- The credentials were in what the user sent: to the services bot, in an exchange of SASL, or in a command
that registered the account. -/
def Given (casemap : Str → Str) (nick0 : Str) (ops : List CredOp) (user pass : Str) : Prop :=
  (∃ target text nick, CredOp.message b!"PRIVMSG" target text ∈ ops ∧ casemap target = b!"nickserv" ∧
    (nick = nick0 ∨ CredOp.nick nick ∈ ops) ∧ Carries nick text user pass) ∨
  (∃ c identity late before after, ops = before ++ CredOp.authResp c identity user pass late :: after ∧
    CredOp.saslDone true ∈ after) ∨
  (∃ c late before after, ops = before ++ CredOp.register c pass late :: after ∧ CredOp.registered user ∈ after)

/-- A fresh connection: no exchange and no command is pending. -/
def CredFresh (st : CredState) : Prop :=
  st.auth = [] ∧ st.register = [] ∧ (∀ c, st.sasl c = none) ∧ st.busy = false

/-- The property of the statement: credentials that are saved are never replaced by empty ones, unless the user
asks for it with an anonymous login. -/
def NeverEmptied (casemap : Str → Str) : Prop :=
  ∀ st ops st', CredFresh st → credRun casemap st ops = some st' → st.saved.password ≠ [] →
    (∀ op ∈ ops, (∀ c, op ≠ .authStart c b!"ANONYMOUS") ∧ (∀ c i u l, op ≠ .authResp c i u [] l) ∧
      (∀ c l, op ≠ .register c [] l)) →
    st'.saved.password ≠ []

/-! ## Texts -/

private theorem fieldsAux_ne (s : Str) : ∀ cur, ∀ w ∈ fieldsAux cur s, w ≠ [] := by
  induction s with
  | nil =>
    intro cur w hw
    rw [fieldsAux] at hw
    split at hw
    · cases hw
    · rename_i h; simp at hw; rw [hw]; exact h
  | cons c s ih =>
    intro cur w hw
    rw [fieldsAux] at hw
    split at hw
    · split at hw
      · exact ih _ w hw
      · rename_i h
        rcases List.mem_cons.1 hw with rfl | hw
        · exact h
        · exact ih _ w hw
    · exact ih _ w hw

private theorem fields_word {s : Str} {w : Str} (h : w ∈ fields s) : w ≠ [] := fieldsAux_ne s [] w h

private theorem carries_pass {nick text u p : Str} (h : Carries nick text u p) : p ≠ [] := by
  cases h with
  | register h _ => exact fields_word (by rw [h]; simp)
  | identify h _ => exact fields_word (by rw [h]; simp)
  | identifyAccount h _ => exact fields_word (by rw [h]; simp)
  | setPassword h _ _ => exact fields_word (by rw [h]; simp)

private theorem parse_cases {text nick : Str} {r : Str × Str} (h : parseNickServ text nick = some r) :
    Carries nick text r.1 r.2 ∨ (r = ([], []) ∧ ∃ cmd rest, fields text = cmd :: rest ∧ asciiUpper cmd = b!"SET") := by
  unfold parseNickServ at h
  split at h
  · rename_i cmd p rest hf
    split at h
    · rename_i hc; injection h with h; subst h; exact Or.inl (.register hf hc)
    · split at h
      · rename_i hc
        split at h
        · injection h with h; subst h; exact Or.inl (.identify hf hc)
        · injection h with h; subst h; exact Or.inl (.identifyAccount hf hc)
      · split at h
        · rename_i hc
          split at h
          · split at h
            · rename_i hw
              injection h with h; subst h; exact Or.inl (.setPassword hf hc hw)
            · injection h with h; subst h; exact Or.inr ⟨rfl, _, _, hf, hc⟩
          · injection h with h; subst h; exact Or.inr ⟨rfl, _, _, hf, hc⟩
        · cases h
  · cases h

/-- C51: what is taken from a message to the services bot. A message that carries an account and a password
gives them; a message that gives a password carries it, with the account. -/
theorem C51_message (nick text user pass : Str) :
    (Carries nick text user pass → parseNickServ text nick = some (user, pass)) ∧
    (parseNickServ text nick = some (user, pass) → pass ≠ [] → Carries nick text user pass) := by
  constructor
  · intro h
    unfold parseNickServ
    cases h with
    | register h hc => rw [h]; simp [hc]
    | identify h hc => rw [h]; simp [hc]
    | identifyAccount h hc => rw [h]; simp [hc]
    | setPassword h hc hw => rw [h]; simp [hc, hw]
  · intro h hp
    rcases parse_cases h with h | ⟨h, -⟩
    · exact h
    · injection h with h1 h2; exact absurd h2 hp

/-! ## Runs -/

/-- What the state knows was given. -/
private structure CredInv (casemap : Str → Str) (st0 : CredState) (ops : List CredOp) (st : CredState) : Prop where
  nick : st.nick = st0.nick ∨ CredOp.nick st.nick ∈ ops
  sasl : ∀ c ex u p, st.sasl c = some ex → ex.plain = some (u, p) → ∃ d identity late, CredOp.authResp d identity u p late ∈ ops
  reg : ∀ e ∈ st.register, ∃ c late, CredOp.register c e.2 late ∈ ops
  ext : st0.saved.mechanism ≠ [] → st0.saved.mechanism ≠ b!"PLAIN" → (∀ c, CredOp.authStart c b!"ANONYMOUS" ∉ ops) →
    st.saved = st0.saved
  anon : (∀ c, CredOp.authStart c b!"ANONYMOUS" ∉ ops) → ∀ c ex, st.sasl c = some ex → ex.mechanism ≠ b!"ANONYMOUS"
  saved : st.saved = st0.saved ∨ Given casemap st0.nick ops st.saved.username st.saved.password ∨
    ((st.saved.username = [] ∧ st.saved.password = []) ∧
      ((∃ c, CredOp.authStart c b!"ANONYMOUS" ∈ ops) ∨
       ∃ target text cmd rest, CredOp.message b!"PRIVMSG" target text ∈ ops ∧ casemap target = b!"nickserv" ∧
        fields text = cmd :: rest ∧ asciiUpper cmd = b!"SET"))

private theorem given_mono {casemap nick0 ops op u p} (h : Given casemap nick0 ops u p) :
    Given casemap nick0 (ops ++ [op]) u p := by
  rcases h with ⟨t, x, n, h1, h2, h3, h4⟩ | ⟨c, i, l, bf, af, h1, h2⟩ | ⟨c, l, bf, af, h1, h2⟩
  · exact Or.inl ⟨t, x, n, by simp [h1], h2, h3.imp id (by intro h; simp [h]), h4⟩
  · exact Or.inr (Or.inl ⟨c, i, l, bf, af ++ [op], by simp [h1], by simp [h2]⟩)
  · exact Or.inr (Or.inr ⟨c, l, bf, af ++ [op], by simp [h1], by simp [h2]⟩)

/-- What was there, followed by what comes. -/
private theorem before_last {α : Type} {l : List α} {x y : α} (h : x ∈ l) :
    ∃ before after, l ++ [y] = before ++ x :: after ∧ y ∈ after := by
  obtain ⟨bf, af, rfl⟩ := List.append_of_mem h
  exact ⟨bf, af ++ [y], by simp, by simp⟩

private theorem saved_mono {casemap : Str → Str} {st0 : CredState} {ops : List CredOp} {op : CredOp} {r : SavedSasl}
    (h : r = st0.saved ∨ Given casemap st0.nick ops r.username r.password ∨
    ((r.username = [] ∧ r.password = []) ∧
      ((∃ c, CredOp.authStart c b!"ANONYMOUS" ∈ ops) ∨
       ∃ target text cmd rest, CredOp.message b!"PRIVMSG" target text ∈ ops ∧ casemap target = b!"nickserv" ∧
        fields text = cmd :: rest ∧ asciiUpper cmd = b!"SET"))) :
    r = st0.saved ∨ Given casemap st0.nick (ops ++ [op]) r.username r.password ∨
    ((r.username = [] ∧ r.password = []) ∧
      ((∃ c, CredOp.authStart c b!"ANONYMOUS" ∈ ops ++ [op]) ∨
       ∃ target text cmd rest, CredOp.message b!"PRIVMSG" target text ∈ ops ++ [op] ∧ casemap target = b!"nickserv" ∧
        fields text = cmd :: rest ∧ asciiUpper cmd = b!"SET")) := by
  rcases h with h | h | ⟨h, ⟨c, hc⟩ | ⟨t, x, cmd, rest, hm, h2⟩⟩
  · exact Or.inl h
  · exact Or.inr (Or.inl (given_mono h))
  · exact Or.inr (Or.inr ⟨h, Or.inl ⟨c, by simp [hc]⟩⟩)
  · exact Or.inr (Or.inr ⟨h, Or.inr ⟨t, x, cmd, rest, by simp [hm], h2⟩⟩)

/-- An operation that leaves the credentials alone. -/
private theorem inv_same {casemap : Str → Str} {st0 st : CredState} {ops : List CredOp} {op : CredOp} (i : CredInv casemap st0 ops st) :
    CredInv casemap st0 (ops ++ [op]) st :=
  { nick := i.nick.imp id (by intro h; simp [h])
    sasl := fun c ex u p h1 h2 => by obtain ⟨d, x, l, h⟩ := i.sasl c ex u p h1 h2; exact ⟨d, x, l, by simp [h]⟩
    reg := fun e he => by obtain ⟨c, l, h⟩ := i.reg e he; exact ⟨c, l, by simp [h]⟩
    ext := fun h1 h2 h3 => i.ext h1 h2 (fun c hc => h3 c (by simp [hc]))
    anon := fun h => i.anon (fun c hc => h c (by simp [hc]))
    saved := saved_mono i.saved }

private theorem mem_enqueue {α : Type} {l : List α} {x e : α} {late : Bool} (h : e ∈ enqueuePending l x late) :
    e ∈ l ∨ e = x := by
  unfold enqueuePending at h
  dsimp only at h
  split at h
  · rcases List.mem_append.1 h with h | h
    · rcases List.mem_append.1 (List.mem_of_mem_drop h) with h | h
      · exact Or.inl h
      · exact Or.inr (by simpa using h)
    · exact Or.inr (by simpa using h)
  · rcases List.mem_append.1 h with h | h
    · exact Or.inl h
    · exact Or.inr (by simpa using h)

/-- Saving credentials that are accounted for. -/
private theorem inv_save {casemap : Str → Str} {st0 st : CredState} {ops : List CredOp} (i : CredInv casemap st0 ops st)
    {u p : Str} (h : Given casemap st0.nick ops u p ∨ ((u = [] ∧ p = []) ∧
       ∃ target text cmd rest, CredOp.message b!"PRIVMSG" target text ∈ ops ∧ casemap target = b!"nickserv" ∧
        fields text = cmd :: rest ∧ asciiUpper cmd = b!"SET")) :
    CredInv casemap st0 ops { st with saved := autoSave st.saved u p } where
  nick := i.nick
  sasl := i.sasl
  reg := i.reg
  anon := i.anon
  ext := by
    intro h1 h2 h3
    have := i.ext h1 h2 h3
    dsimp only
    rw [this]
    unfold autoSave
    rw [if_pos ⟨h1, h2⟩]
  saved := by
    dsimp only
    unfold autoSave
    split
    · exact i.saved
    · rcases h with h | ⟨h, hm⟩
      · exact Or.inr (Or.inl h)
      · exact Or.inr (Or.inr ⟨h, Or.inr hm⟩)

private theorem inv_setSasl {casemap : Str → Str} {st0 st : CredState} {ops : List CredOp} (i : CredInv casemap st0 ops st)
    (c : Nat) (v : Option ClientSasl)
    (h : ∀ ex u p, v = some ex → ex.plain = some (u, p) → ∃ d identity late, CredOp.authResp d identity u p late ∈ ops)
    (ha : (∀ c, CredOp.authStart c b!"ANONYMOUS" ∉ ops) → ∀ ex, v = some ex → ex.mechanism ≠ b!"ANONYMOUS") :
    CredInv casemap st0 ops (st.setSasl c v) where
  nick := i.nick
  reg := i.reg
  ext := i.ext
  saved := i.saved
  sasl := by
    intro d ex u p h1 h2
    unfold CredState.setSasl at h1
    dsimp only at h1
    split at h1
    · exact h ex u p h1 h2
    · exact i.sasl d ex u p h1 h2
  anon := by
    intro hn d ex h1
    unfold CredState.setSasl at h1
    dsimp only at h1
    split at h1
    · exact ha hn ex h1
    · exact i.anon hn d ex h1

/-- Changes of the queues that add nothing, and of `busy` and `clients`. -/
private theorem inv_queues {casemap : Str → Str} {st0 st : CredState} {ops : List CredOp} (i : CredInv casemap st0 ops st)
    (busy : Bool) (auth : List Nat) (reg : List (Nat × Str)) (clients : Nat → Bool)
    (hr : ∀ e ∈ reg, ∃ c late, CredOp.register c e.2 late ∈ ops) :
    CredInv casemap st0 ops { st with busy := busy, auth := auth, register := reg, clients := clients } where
  nick := i.nick
  sasl := i.sasl
  reg := hr
  ext := i.ext
  anon := i.anon
  saved := i.saved

private theorem inv_step {casemap : Str → Str} {st0 st st' : CredState} {ops : List CredOp} {op : CredOp}
    (i0 : CredInv casemap st0 ops st) (h : credStep casemap st op = some st') : CredInv casemap st0 (ops ++ [op]) st' := by
  have i := inv_same (op := op) i0
  cases op with
  | message command target text =>
    simp only [credStep] at h
    split at h
    · rename_i hc
      split at h
      · rename_i u p hp
        injection h with h
        subst h
        apply inv_save i
        rcases parse_cases hp with h | ⟨h, cmd, rest, h1, h2⟩
        · exact Or.inl (Or.inl ⟨target, text, st.nick, by simp [hc.1], hc.2, i.nick, h⟩)
        · injection h with h3 h4
          exact Or.inr ⟨⟨h3, h4⟩, target, text, cmd, rest, by simp [hc.1], hc.2, h1, h2⟩
      · injection h with h; subst h; exact i
    · injection h with h; subst h; exact i
  | authStart c mech =>
    simp only [credStep] at h
    split at h
    · injection h with h; subst h; exact i
    · split at h
      · split at h
        · injection h with h
          subst h
          apply inv_setSasl i
          · intro ex u p h1 h2
            injection h1 with h1
            subst h1
            cases h2
          · intro hn ex h1
            injection h1 with h1
            subst h1
            intro hm
            dsimp only at hm
            exact hn c (by simp [hm])
        · injection h with h; subst h; exact i
      · injection h with h; subst h; exact i
  | authResp c identity username password late =>
    simp only [credStep] at h
    split at h
    · injection h with h; subst h; exact i
    · split at h
      · injection h with h; subst h; exact i
      · rename_i ex hex
        split at h
        · injection h with h; subst h
          exact inv_setSasl i c none (by intro _ _ _ h; cases h) (by intro _ _ h; cases h)
        · injection h with h
          subst h
          have hset : CredInv casemap st0 (ops ++ [CredOp.authResp c identity username password late])
              (st.setSasl c (some { ex with plain := some (username, password) })) := by
            apply inv_setSasl i
            · intro ex' u p h1 h2
              injection h1 with h1
              subst h1
              injection h2 with h2
              injection h2 with h2 h3
              subst h2; subst h3
              exact ⟨c, identity, late, by simp⟩
            · intro hn ex' h1
              injection h1 with h1
              subst h1
              exact i.anon hn c ex hex
          have hnone : CredInv casemap st0 (ops ++ [CredOp.authResp c identity username password late])
              (st.setSasl c none) := inv_setSasl i c none (by intro _ _ _ h; cases h) (by intro _ _ h; cases h)
          unfold finishAuth
          split
          · exact hnone
          · split
            · split
              · exact hset
              · exact inv_queues hset true _ st.register st.clients i.reg
            · split
              · rename_i hm
                have hanon : ¬ ∀ c', CredOp.authStart c' b!"ANONYMOUS" ∉
                    ops ++ [CredOp.authResp c identity username password late] :=
                  fun hn => i.anon hn c ex hex hm
                refine { nick := hnone.nick, sasl := hnone.sasl, reg := hnone.reg, anon := hnone.anon, ext := ?_, saved := ?_ }
                · intro _ _ h; exact absurd h hanon
                · dsimp only
                  split
                  · simp only [Classical.not_forall, Classical.not_not] at hanon
                    exact Or.inr (Or.inr ⟨⟨rfl, rfl⟩, Or.inl hanon⟩)
                  · exact hnone.saved
              · exact hnone
  | authError c =>
    simp only [credStep] at h
    injection h with h; subst h
    exact inv_setSasl i c none (by intro _ _ _ h; cases h) (by intro _ _ h; cases h)
  | register c password late =>
    simp only [credStep] at h
    split at h
    · injection h with h; subst h; exact i
    · injection h with h; subst h
      apply inv_queues i st.busy st.auth _ st.clients
      intro e he
      rcases mem_enqueue he with he | rfl
      · exact i.reg e he
      · exact ⟨c, late, by simp⟩
  | saslDone success =>
    simp only [credStep] at h
    have hq := inv_queues i false (st.auth.drop 1) st.register st.clients i.reg
    split at h
    · injection h with h; subst h; exact hq
    · rename_i c rest hauth
      split at h
      · injection h with h; subst h; exact hq
      · split at h
        · injection h with h; subst h; exact hq
        · rename_i ex hex
          split at h
          · split at h
            · cases h
            · rename_i u p hp
              injection h with h
              subst h
              have := inv_setSasl hq c none (by intro _ _ _ h; cases h) (by intro _ _ h; cases h)
              obtain ⟨d, idn, l, hd⟩ := i0.sasl c ex u p hex hp
              have hsucc : success = true := by assumption
              subst hsucc
              obtain ⟨bf, af, h1, h2⟩ := before_last (y := CredOp.saslDone true) hd
              exact inv_save this (u := u) (p := p) (Or.inl (Or.inr (Or.inl ⟨d, idn, l, bf, af, h1, h2⟩)))
          · injection h with h; subst h
            exact inv_setSasl hq c none (by intro _ _ _ h; cases h) (by intro _ _ h; cases h)
  | registered account =>
    simp only [credStep] at h
    split at h
    · injection h with h; subst h; exact i
    · rename_i c password rest hreg
      have hq := inv_queues i st.busy st.auth rest st.clients (fun e he => i.reg e (by rw [hreg]; simp [he]))
      split at h
      · injection h with h; subst h
        obtain ⟨d, l, hd⟩ := i0.reg (c, password) (by rw [hreg]; simp)
        obtain ⟨bf, af, h1, h2⟩ := before_last (y := CredOp.registered account) hd
        exact inv_save hq (u := account) (p := password) (Or.inl (Or.inr (Or.inr ⟨d, l, bf, af, h1, h2⟩)))
      · injection h with h; subst h; exact hq
  | fail command numeric =>
    simp only [credStep] at h
    split at h
    · injection h with h; subst h
      exact inv_queues i _ _ st.register st.clients i.reg
    · split at h
      · injection h with h; subst h
        exact inv_queues i st.busy st.auth _ st.clients (fun e he => i.reg e (List.mem_of_mem_drop he))
      · injection h with h; subst h; exact i
  | capAck =>
    simp only [credStep] at h
    injection h with h; subst h
    exact inv_queues i _ st.auth st.register st.clients i.reg
  | nick n =>
    simp only [credStep] at h
    injection h with h; subst h
    exact { nick := Or.inr (by simp), sasl := i.sasl, reg := i.reg, ext := i.ext, anon := i.anon, saved := i.saved }
  | connect c =>
    simp only [credStep] at h
    injection h with h; subst h
    have := inv_setSasl i c none (by intro _ _ _ h; cases h) (by intro _ _ h; cases h)
    exact inv_queues this st.busy st.auth st.register _ i.reg
  | disconnect c =>
    simp only [credStep] at h
    injection h with h; subst h
    have := inv_setSasl i c none (by intro _ _ _ h; cases h) (by intro _ _ h; cases h)
    refine inv_queues this st.busy _ _ _ ?_
    intro e he
    rcases List.mem_append.1 he with he | he
    · exact i.reg e (List.mem_of_mem_take he)
    · exact i.reg e (List.mem_of_mem_drop (List.mem_filter.1 he).1)
  | lost =>
    simp only [credStep] at h
    injection h with h; subst h
    refine { nick := i.nick, sasl := ?_, reg := ?_, ext := i.ext, anon := ?_, saved := i.saved }
    · intro d ex u p h1 h2
      dsimp only at h1
      split at h1
      · cases h1
      · exact i.sasl d ex u p h1 h2
    · intro e he; cases he
    · intro hn d ex h1
      dsimp only at h1
      split at h1
      · cases h1
      · exact i.anon hn d ex h1

private theorem inv_run {casemap : Str → Str} {st0 : CredState} : ∀ (ops done : List CredOp) (st st' : CredState),
    CredInv casemap st0 done st → credRun casemap st ops = some st' → CredInv casemap st0 (done ++ ops) st' := by
  intro ops
  induction ops with
  | nil => intro done st st' i h; injection h with h; subst h; simpa using i
  | cons op ops ih =>
    intro done st st' i h
    rw [credRun] at h
    split at h
    · cases h
    · rename_i st1 h1
      have := ih (done ++ [op]) st1 st' (inv_step i h1) h
      simpa using this

private theorem inv_fresh {casemap : Str → Str} {st : CredState} (f : CredFresh st) : CredInv casemap st [] st where
  nick := Or.inl rfl
  sasl := by intro c ex u p h; rw [f.2.2.1 c] at h; cases h
  reg := by intro e he; rw [f.2.1] at he; cases he
  ext := fun _ _ _ => rfl
  anon := by intro _ c ex h; rw [f.2.2.1 c] at h; cases h
  saved := Or.inl rfl

/-- C51: saved credentials come from the user. Whatever the clients and the server do, credentials that were not
there before were given by the user: to the services bot, in an exchange of SASL the server accepted later, or in a
command that registered the account. -/
theorem C51_origin (casemap : Str → Str) (st st' : CredState) (ops : List CredOp) (f : CredFresh st)
    (h : credRun casemap st ops = some st') (hp : st'.saved.password ≠ []) :
    st'.saved = st.saved ∨ Given casemap st.nick ops st'.saved.username st'.saved.password := by
  have i := inv_run ops [] st st' (inv_fresh f) h
  rw [List.nil_append] at i
  rcases i.saved with h | h | ⟨⟨-, h⟩, -⟩
  · exact Or.inl h
  · exact Or.inr h
  · exact absurd h hp

/-- C51: credentials of another kind, such as a certificate, are never replaced, unless the user asks for it with
an anonymous login. -/
theorem C51_external (casemap : Str → Str) (st st' : CredState) (ops : List CredOp) (f : CredFresh st)
    (h : credRun casemap st ops = some st') (h1 : st.saved.mechanism ≠ []) (h2 : st.saved.mechanism ≠ b!"PLAIN")
    (ha : ∀ c, CredOp.authStart c b!"ANONYMOUS" ∉ ops) : st'.saved = st.saved := by
  have i := inv_run ops [] st st' (inv_fresh f) h
  rw [List.nil_append] at i
  exact i.ext h1 h2 ha

/-- C51, if the user sends no `SET …` to the services bot: saved credentials are never replaced by empty ones
(unless the user asks for it with an anonymous login, or gives an empty password to the server). Missing: `SET`
followed by anything but a password (`C51_violated`). -/
theorem C51_kept_partial (casemap : Str → Str) (st st' : CredState) (ops : List CredOp) (f : CredFresh st)
    (h : credRun casemap st ops = some st') (hp : st.saved.password ≠ [])
    (hops : ∀ op ∈ ops, (∀ c, op ≠ .authStart c b!"ANONYMOUS") ∧ (∀ c i u l, op ≠ .authResp c i u [] l) ∧
      (∀ c l, op ≠ .register c [] l))
    (hset : ∀ target text cmd rest, CredOp.message b!"PRIVMSG" target text ∈ ops → fields text = cmd :: rest →
      asciiUpper cmd ≠ b!"SET") : st'.saved.password ≠ [] := by
  have i := inv_run ops [] st st' (inv_fresh f) h
  rw [List.nil_append] at i
  rcases i.saved with h | h | ⟨-, ⟨c, hc⟩ | ⟨t, x, cmd, rest, h1, -, h2, h3⟩⟩
  · rw [h]; exact hp
  · rcases h with ⟨t, x, n, -, -, -, h⟩ | ⟨c, i, l, bf, af, h, -⟩ | ⟨c, l, bf, af, h, -⟩
    · exact carries_pass h
    · intro he
      rw [he] at h
      exact (hops (.authResp c i st'.saved.username [] l) (by rw [h]; simp)).2.1 c i _ l rfl
    · intro he
      rw [he] at h
      exact (hops (.register c [] l) (by rw [h]; simp)).2.2 c l rfl
  · exact absurd rfl ((hops _ hc).1 c)
  · exact absurd h3 (hset t x cmd rest h1 h2)

/-- A network with saved credentials and a client. -/
def credStateEx : CredState :=
  { saved := ⟨b!"PLAIN", b!"alice", b!"secret"⟩, nick := b!"alice", busy := false, auth := [], register := [],
    clients := fun c => decide (c = 1), sasl := fun _ => none }

/-- C51 does not hold: `SET EMAIL` replaces the saved credentials by empty ones. -/
theorem C51_violated : ¬ NeverEmptied asciiLower := by
  intro h
  have := h credStateEx [.message b!"PRIVMSG" b!"NickServ" b!"SET EMAIL alice@example.org"]
    { credStateEx with saved := ⟨b!"PLAIN", [], []⟩ } ⟨rfl, rfl, fun _ => rfl, rfl⟩
    rfl (by decide)
    (by intro op hop; simp at hop; subst hop; refine ⟨?_, ?_, ?_⟩ <;> (intros; intro h; cases h))
  exact this rfl

/-- C51, another disagreement: a client that aborts an exchange and begins another one before the server has
answered the first makes the bouncer panic when the server accepts it. -/
theorem C51_abort_violated : credRun asciiLower credStateEx
    [.authStart 1 b!"PLAIN", .authResp 1 [] b!"alice" b!"new" false, .authError 1, .authStart 1 b!"PLAIN",
      .saslDone true] = none := by rfl

/-- The clients that wait for the answer to a SASL exchange send nothing about SASL. -/
def Patient (casemap : Str → Str) : CredState → List CredOp → Prop
  | _, [] => True
  | st, op :: ops =>
    (∀ c, (∃ m, op = .authStart c m) ∨ (∃ i u p l, op = .authResp c i u p l) → c ∉ st.auth) ∧
    ∀ st', credStep casemap st op = some st' → Patient casemap st' ops

/-- C51: with clients that wait for the answer of the server, the bouncer does not panic. -/
theorem C51_no_panic (casemap : Str → Str) (st : CredState) (ops : List CredOp) (f : CredFresh st)
    (hp : Patient casemap st ops) : ∃ st', credRun casemap st ops = some st' := by
  have key : ∀ (ops : List CredOp) (st : CredState),
      (∀ c ∈ st.auth, ∀ ex, st.sasl c = some ex → ex.plain ≠ none) → Patient casemap st ops →
      ∃ st', credRun casemap st ops = some st' := by
    intro ops
    induction ops with
    | nil => intro st _ _; exact ⟨st, rfl⟩
    | cons op ops ih =>
      intro st inv hp
      rw [Patient] at hp
      have hstep : ∃ st1, credStep casemap st op = some st1 ∧
          ∀ c ∈ st1.auth, ∀ ex, st1.sasl c = some ex → ex.plain ≠ none := by
        have hset : ∀ c, ∀ d ∈ st.auth, ∀ ex, (st.setSasl c none).sasl d = some ex → ex.plain ≠ none := by
          intro c d hd ex h
          unfold CredState.setSasl at h
          dsimp only at h
          split at h
          · cases h
          · exact inv d hd ex h
        cases op with
        | message command target text =>
          simp only [credStep]
          split
          · split
            · exact ⟨_, rfl, inv⟩
            · exact ⟨_, rfl, inv⟩
          · exact ⟨_, rfl, inv⟩
        | authStart c mech =>
          have hc := hp.1 c (Or.inl ⟨mech, rfl⟩)
          simp only [credStep]
          split
          · exact ⟨_, rfl, inv⟩
          · split
            · split
              · refine ⟨_, rfl, ?_⟩
                intro d hd ex h
                unfold CredState.setSasl at h
                dsimp only at h
                split at h
                · rename_i he; subst he; exact absurd hd hc
                · exact inv d hd ex h
              · exact ⟨_, rfl, inv⟩
            · exact ⟨_, rfl, inv⟩
        | authResp c identity u p late =>
          have hc := hp.1 c (Or.inr ⟨identity, u, p, late, rfl⟩)
          simp only [credStep]
          split
          · exact ⟨_, rfl, inv⟩
          · split
            · exact ⟨_, rfl, inv⟩
            · rename_i ex hex
              split
              · exact ⟨_, rfl, hset c⟩
              · refine ⟨_, rfl, ?_⟩
                have hsome : ∀ d, (d ∈ st.auth ∨ d = c) → ∀ ex', (st.setSasl c (some { ex with plain := some (u, p) })).sasl d = some ex' →
                    ex'.plain ≠ none := by
                  intro d hd ex' h
                  unfold CredState.setSasl at h
                  dsimp only at h
                  split at h
                  · injection h with h; subst h; simp
                  · rename_i hne
                    rcases hd with hd | hd
                    · exact inv d hd ex' h
                    · exact absurd hd hne
                unfold finishAuth
                split
                · exact hset c
                · split
                  · split
                    · exact fun d hd => hsome d (Or.inl hd)
                    · exact fun d hd => hsome d (mem_enqueue hd)
                  · split
                    · exact hset c
                    · exact hset c
        | authError c => exact ⟨_, rfl, hset c⟩
        | register c password late =>
          simp only [credStep]
          split
          · exact ⟨_, rfl, inv⟩
          · exact ⟨_, rfl, inv⟩
        | saslDone success =>
          simp only [credStep]
          have hq : ∀ d ∈ st.auth.drop 1, ∀ ex, st.sasl d = some ex → ex.plain ≠ none :=
            fun d hd => inv d (List.mem_of_mem_drop hd)
          split
          · exact ⟨_, rfl, hq⟩
          · rename_i c rest hauth
            have hsetq : ∀ d ∈ st.auth.drop 1, ∀ ex, (if d = c then none else st.sasl d) = some ex → ex.plain ≠ none := by
              intro d hd ex h
              split at h
              · cases h
              · exact hq d hd ex h
            split
            · exact ⟨_, rfl, hq⟩
            · split
              · exact ⟨_, rfl, hq⟩
              · rename_i ex hex
                split
                · split
                  · rename_i hn
                    exact absurd hn (inv c (by rw [hauth]; simp) ex hex)
                  · exact ⟨_, rfl, hsetq⟩
                · exact ⟨_, rfl, hsetq⟩
        | registered account =>
          simp only [credStep]
          split
          · exact ⟨_, rfl, inv⟩
          · split
            · exact ⟨_, rfl, inv⟩
            · exact ⟨_, rfl, inv⟩
        | fail command numeric =>
          simp only [credStep]
          split
          · exact ⟨_, rfl, fun d hd => inv d (List.mem_of_mem_drop hd)⟩
          · split
            · exact ⟨_, rfl, inv⟩
            · exact ⟨_, rfl, inv⟩
        | capAck => exact ⟨_, rfl, inv⟩
        | nick n => exact ⟨_, rfl, inv⟩
        | connect c => exact ⟨_, rfl, hset c⟩
        | disconnect c =>
          refine ⟨_, rfl, ?_⟩
          intro d hd
          apply hset c d
          rcases List.mem_append.1 hd with hd | hd
          · exact List.mem_of_mem_take hd
          · exact List.mem_of_mem_drop (List.mem_filter.1 hd).1
        | lost => exact ⟨_, rfl, fun d hd => by cases hd⟩
      obtain ⟨st1, h1, inv1⟩ := hstep
      obtain ⟨st', h'⟩ := ih st1 inv1 (hp.2 st1 h1)
      exact ⟨st', by rw [credRun, h1]; exact h'⟩
  exact key ops st (by intro c hc; rw [f.1] at hc; cases hc) hp

/-! ## The theorems are not about nothing -/

example : CredFresh credStateEx := ⟨rfl, rfl, fun _ => rfl, rfl⟩

example : Carries b!"alice" b!"identify  acct pw" b!"acct" b!"pw" :=
  .identifyAccount (cmd := b!"identify") (rest := []) (by decide) (by decide)

/-- A login through the bouncer is saved; a message to someone else is not. -/
example : ((credRun asciiLower credStateEx [.authStart 1 b!"PLAIN", .authResp 1 [] b!"bob" b!"pw" false,
    .message b!"PRIVMSG" b!"carol" b!"IDENTIFY x", .saslDone true]).map (·.saved)) = some ⟨b!"PLAIN", b!"bob", b!"pw"⟩ := by
  decide

example : ((credRun asciiLower credStateEx [.authStart 1 b!"PLAIN", .authResp 1 [] b!"bob" b!"pw" false,
    .saslDone false]).map (·.saved)) = some credStateEx.saved := by decide

example : Patient asciiLower credStateEx [.authStart 1 b!"PLAIN", .saslDone true] := by
  rw [Patient]
  refine ⟨by intro c _ h; simp [credStateEx] at h, ?_⟩
  intro st' h
  rw [Patient]
  refine ⟨?_, fun _ _ => trivial⟩
  rintro c (⟨m, h⟩ | ⟨i, u, p, l, h⟩) <;> cases h

end Verif.Props
