import Verif.Model.Register
import Verif.Proof.GoStr
import Verif.Proof.Util

/-! # C27-C29: registration, impersonation and login names -/

namespace Verif.Props
open Verif.Model Verif.Proof

/-! ## Specification -/

/-- The user part of a login name: what precedes the first separator. -/
def loginUser (login : Str) : Str := login.takeWhile (fun c => decide (c ≠ 47 ∧ c ≠ 64))

/-- The client sent this password with PASS. -/
def SentPass (msgs : List RegMsg) (pw : Str) : Prop := ∃ rest, (⟨b!"PASS", pw :: rest⟩ : RegMsg) ∈ msgs

/-- The client sent this login name with USER. -/
def SentUser (msgs : List RegMsg) (login : Str) : Prop := ∃ rest, (⟨b!"USER", login :: rest⟩ : RegMsg) ∈ msgs

/-- The client sent this SASL response in one or several AUTHENTICATE messages ("+" standing for
nothing). -/
def SentResponse (lib : SaslLib) (msgs : List RegMsg) (resp : Str) : Prop :=
  ∃ chunks : List Str, lib.decode chunks.flatten = some resp ∧
    ∀ c ∈ chunks, ∃ p rest, (⟨b!"AUTHENTICATE", p :: rest⟩ : RegMsg) ∈ msgs ∧
      (c = p ∨ (c = [] ∧ p = b!"+"))

/-- At this moment, with the messages sent so far, the authenticator accepts what the client presented as
proof that it may be user `u`.  `imp` tells which administrator it is, if it is somebody else. -/
inductive Accepts (lib : SaslLib) (env : AuthEnv) (msgs : List RegMsg) (u : Str) : Option Str → Prop
  /-- PASS and USER. -/
  | pass (auth : Str → Str → Bool) (login pw : Str) (hp : env.plain = some auth) (hu : SentUser msgs login)
      (hw : SentPass msgs pw) (he : loginUser login = u) (ha : auth u pw = true) : Accepts lib env msgs u none
  /-- SASL PLAIN without authorization identity (or the same one). -/
  | plain (auth : Str → Str → Bool) (identity login pw : Str) (hp : env.plain = some auth)
      (hr : SentResponse lib msgs (identity ++ 0 :: login ++ 0 :: pw)) (hi : identity = [] ∨ identity = login)
      (he : loginUser login = u) (ha : auth u pw = true) : Accepts lib env msgs u none
  /-- SASL PLAIN with another authorization identity. -/
  | impersonate (auth : Str → Str → Bool) (identity login pw : Str) (admin : AuthUser)
      (hp : env.plain = some auth)
      (hr : SentResponse lib msgs (identity ++ 0 :: login ++ 0 :: pw))
      (he : loginUser identity = u) (ha : auth (loginUser login) pw = true)
      (hu : env.users (loginUser login) = some admin) (hadm : admin.admin = true)
      (hx : env.users u ≠ none) : Accepts lib env msgs u (some (loginUser login))
  /-- SASL OAUTHBEARER. -/
  | oauth (auth : Str → Option Str) (resp user token : Str) (hp : env.oauth = some auth)
      (hr : SentResponse lib msgs resp) (ho : lib.oauthParse resp = some (user, token))
      (hi : user = [] ∨ user = u) (ha : auth token = some u) : Accepts lib env msgs u none

/-- At some moment of the history. -/
def AcceptedDuring (lib : SaslLib) (evs : List (AuthEnv × RegMsg)) (u : Str) (imp : Option Str) : Prop :=
  ∃ pre ev post, evs = pre ++ ev :: post ∧ Accepts lib ev.1 ((pre ++ [ev]).map (·.2)) u imp

/-! ## Lemmas on login names -/

private theorem firstSep_none {s : Str} : firstSep s = none ↔ ∀ c ∈ s, isLoginSep c = false := by
  induction s with
  | nil => simp [firstSep]
  | cons c s ih =>
    simp only [firstSep]
    split <;> simp_all

private theorem lastSep_none {s : Str} : lastSep s = none ↔ ∀ c ∈ s, isLoginSep c = false := by
  induction s with
  | nil => simp [lastSep]
  | cons c s ih =>
    simp only [lastSep]
    cases h : lastSep s with
    | none =>
      rw [h] at ih
      simp only [true_iff] at ih
      simp only
      split
      · simp_all
      · simp_all
    | some i =>
      rw [h] at ih
      simp only [reduceCtorEq, false_iff] at ih ⊢
      intro h'; exact ih (fun c hc => h' c (List.mem_cons_of_mem _ hc))

private theorem firstSep_append {a : Str} (h : ∀ c ∈ a, isLoginSep c = false) (x : Byte)
    (hx : isLoginSep x = true) (b : Str) : firstSep (a ++ x :: b) = some a.length := by
  induction a with
  | nil => simp [firstSep, hx]
  | cons c a ih =>
    simp only [List.cons_append, firstSep, h c List.mem_cons_self, Bool.false_eq_true, if_false]
    rw [ih (fun c hc => h c (List.mem_cons_of_mem _ hc))]
    simp

private theorem lastSep_append (a : Str) {b : Str} (h : ∀ c ∈ b, isLoginSep c = false) (x : Byte)
    (hx : isLoginSep x = true) : lastSep (a ++ x :: b) = some a.length := by
  induction a with
  | nil => simp [lastSep, lastSep_none.2 h, hx]
  | cons c a ih => simp [lastSep, ih]

private theorem sep_cases {x : Byte} : isLoginSep x = true ↔ x = 47 ∨ x = 64 := by
  simp [isLoginSep]

/-- Every string has no separator, exactly one, or a first and a last one. -/
private theorem login_cases (s : Str) :
    (∀ c ∈ s, isLoginSep c = false) ∨
    (∃ a x b, s = a ++ x :: b ∧ isLoginSep x = true ∧ (∀ c ∈ a, isLoginSep c = false) ∧
      (∀ c ∈ b, isLoginSep c = false)) ∨
    (∃ a x m y b, s = a ++ x :: (m ++ y :: b) ∧ isLoginSep x = true ∧ isLoginSep y = true ∧
      (∀ c ∈ a, isLoginSep c = false) ∧ (∀ c ∈ b, isLoginSep c = false)) := by
  have last : ∀ s : Str, (∀ c ∈ s, isLoginSep c = false) ∨ ∃ m y b, s = m ++ y :: b ∧
      isLoginSep y = true ∧ ∀ c ∈ b, isLoginSep c = false := by
    intro s
    induction s with
    | nil => left; simp
    | cons c s ih =>
      rcases ih with ih | ⟨m, y, b, rfl, hy, hb⟩
      · cases hc : isLoginSep c with
        | false => left; simpa [hc] using ih
        | true => right; exact ⟨[], c, s, rfl, hc, ih⟩
      · right; exact ⟨c :: m, y, b, rfl, hy, hb⟩
  have first : ∀ s : Str, (∀ c ∈ s, isLoginSep c = false) ∨ ∃ a x r, s = a ++ x :: r ∧
      isLoginSep x = true ∧ ∀ c ∈ a, isLoginSep c = false := by
    intro s
    induction s with
    | nil => left; simp
    | cons c s ih =>
      cases hc : isLoginSep c with
      | true => right; exact ⟨[], c, s, rfl, hc, by simp⟩
      | false =>
        rcases ih with ih | ⟨a, x, r, rfl, hx, ha⟩
        · left; simpa [hc] using ih
        · right; exact ⟨c :: a, x, r, rfl, hx, by simpa [hc] using ha⟩
  rcases first s with h | ⟨a, x, r, rfl, hx, ha⟩
  · exact Or.inl h
  · rcases last r with h | ⟨m, y, b, rfl, hy, hb⟩
    · exact Or.inr (Or.inl ⟨a, x, r, rfl, hx, ha, h⟩)
    · exact Or.inr (Or.inr ⟨a, x, m, y, b, rfl, hx, hy, ha, hb⟩)

private theorem unmarshal_none {s : Str} (h : ∀ c ∈ s, isLoginSep c = false) :
    unmarshalUsername s = (s, [], []) := by
  simp [unmarshalUsername, firstSep_none.2 h, lastSep_none.2 h]

private theorem unmarshal_one {a b : Str} {x : Byte} (hx : isLoginSep x = true)
    (ha : ∀ c ∈ a, isLoginSep c = false) (hb : ∀ c ∈ b, isLoginSep c = false) :
    unmarshalUsername (a ++ x :: b) = (a, if x = 64 then b else [], if x = 64 then [] else b) := by
  have hd : (a ++ x :: b).drop (a.length + 1) = b := by
    rw [show a ++ x :: b = (a ++ [x]) ++ b by simp]
    rw [show a.length + 1 = (a ++ [x]).length by simp, List.drop_left]
  simp only [unmarshalUsername, firstSep_append ha x hx b, lastSep_append a hb x hx, Nat.lt_irrefl, if_false,
    List.take_left, hd]
  simp only [List.getElem?_append_right (Nat.le_refl _), Nat.sub_self, List.getElem?_cons_zero,
    Option.some.injEq]
  rcases sep_cases.1 hx with rfl | rfl <;> simp

private theorem unmarshal_two {a m b : Str} {x y : Byte} (hx : isLoginSep x = true) (hy : isLoginSep y = true)
    (ha : ∀ c ∈ a, isLoginSep c = false) (hb : ∀ c ∈ b, isLoginSep c = false) :
    unmarshalUsername (a ++ x :: (m ++ y :: b)) =
      (a, if x = 64 then m else if y = 64 then b else [], if x = 64 then (if y = 64 then [] else b) else m) := by
  have e2 : a ++ x :: (m ++ y :: b) = (a ++ x :: m) ++ y :: b := by simp
  have hl : lastSep (a ++ x :: (m ++ y :: b)) = some (a ++ x :: m).length := by
    rw [e2]; exact lastSep_append _ hb y hy
  have hf := firstSep_append ha x hx (m ++ y :: b)
  have hlt : a.length < (a ++ x :: m).length := by simp
  have hd : (a ++ x :: (m ++ y :: b)).drop ((a ++ x :: m).length + 1) = b := by
    rw [e2, show (a ++ x :: m) ++ y :: b = ((a ++ x :: m) ++ [y]) ++ b by simp,
      show (a ++ x :: m).length + 1 = ((a ++ x :: m) ++ [y]).length by
        rw [List.length_append (bs := [y])]; rfl, List.drop_left]
  have ht : ((a ++ x :: (m ++ y :: b)).take (a ++ x :: m).length).drop (a.length + 1) = m := by
    rw [e2, List.take_left, show a ++ x :: m = (a ++ [x]) ++ m by simp,
      show a.length + 1 = (a ++ [x]).length by simp, List.drop_left]
  have hi : (a ++ x :: (m ++ y :: b))[a.length]? = some x := by
    simp [List.getElem?_append_right (Nat.le_refl _)]
  have hj : (a ++ x :: (m ++ y :: b))[(a ++ x :: m).length]? = some y := by
    rw [e2]; simp [List.getElem?_append_right (Nat.le_refl _)]
  simp only [unmarshalUsername, hf, hl, hlt, if_true, List.take_left, hd, ht, hi, hj, Option.some.injEq]
  rcases sep_cases.1 hx with rfl | rfl <;> rcases sep_cases.1 hy with rfl | rfl <;> simp

private theorem unmarshal_user (s : Str) : (unmarshalUsername s).1 = loginUser s := by
  have tw : ∀ (a : Str), (∀ c ∈ a, isLoginSep c = false) →
      a.takeWhile (fun c => decide (c ≠ 47 ∧ c ≠ 64)) = a := by
    intro a ha
    induction a with
    | nil => rfl
    | cons c a ih =>
      have h1 := ha c List.mem_cons_self
      simp [isLoginSep] at h1
      simp only [List.takeWhile_cons, h1, ne_eq, not_false_eq_true, and_self, decide_true, if_true]
      rw [ih (fun c hc => ha c (List.mem_cons_of_mem _ hc))]
  have tw2 : ∀ (a r : Str) (x : Byte), isLoginSep x = true → (∀ c ∈ a, isLoginSep c = false) →
      (a ++ x :: r).takeWhile (fun c => decide (c ≠ 47 ∧ c ≠ 64)) = a := by
    intro a r x hx ha
    induction a with
    | nil => rcases sep_cases.1 hx with rfl | rfl <;> simp
    | cons c a ih =>
      have h1 := ha c List.mem_cons_self
      simp [isLoginSep] at h1
      simp only [List.cons_append, List.takeWhile_cons]
      simp only [h1, ne_eq, not_false_eq_true, and_self, decide_true, if_true]
      rw [ih (fun c hc => ha c (List.mem_cons_of_mem _ hc))]
  unfold loginUser
  rcases login_cases s with h | ⟨a, x, b, rfl, hx, ha, hb⟩ | ⟨a, x, m, y, b, rfl, hx, hy, ha, hb⟩
  · rw [unmarshal_none h, tw s h]
  · rw [unmarshal_one hx ha hb, tw2 a b x hx ha]
  · rw [unmarshal_two hx hy ha hb, tw2 a _ x hx ha]

/-! ## C29: login names -/

/-- Neither "/" nor "@". -/
def NoSep (s : Str) : Prop := 47 ∉ s ∧ 64 ∉ s

private theorem noSep_iff {s : Str} : NoSep s ↔ ∀ c ∈ s, isLoginSep c = false := by
  unfold NoSep isLoginSep
  constructor
  · intro h c hc
    simp only [Bool.or_eq_false_iff, beq_eq_false_iff_ne]
    exact ⟨fun e => h.1 (e ▸ hc), fun e => h.2 (e ▸ hc)⟩
  · intro h
    refine ⟨fun hc => ?_, fun hc => ?_⟩ <;> have := h _ hc <;> simp at this

/-- **C29**: a login name is split into its parts, whichever suffixes it has and in whichever order: the
result is (user, client, network). -/
theorem C29_split (user network client : Str) (hu : NoSep user) (hn : NoSep network) (hc : NoSep client) :
    unmarshalUsername (user ++ b!"/" ++ network ++ b!"@" ++ client) = (user, client, network) ∧
    unmarshalUsername (user ++ b!"@" ++ client ++ b!"/" ++ network) = (user, client, network) ∧
    unmarshalUsername (user ++ b!"/" ++ network) = (user, [], network) ∧
    unmarshalUsername (user ++ b!"@" ++ client) = (user, client, []) ∧
    unmarshalUsername user = (user, [], []) := by
  rw [noSep_iff] at hu hn hc
  refine ⟨?_, ?_, ?_, ?_, unmarshal_none hu⟩
  · have := unmarshal_two (x := 47) (y := 64) (m := network) rfl rfl hu hc
    simpa using this
  · have := unmarshal_two (x := 64) (y := 47) (m := client) rfl rfl hu hn
    simpa using this
  · have := unmarshal_one (x := 47) rfl hu hn
    simpa using this
  · have := unmarshal_one (x := 64) rfl hu hc
    simpa using this

example : NoSep b!"alice" ∧ NoSep b!"libera" ∧ NoSep b!"phone" := by unfold NoSep; decide

/-- **C29**: for every login name whose first and last separators are not two of the same kind, the parts
re-assemble to the login name. -/
theorem C29_reassemble (login : Str)
    (h : ∀ a x m b, login = a ++ x :: (m ++ x :: b) → NoSep a → NoSep b → ¬ (x = 47 ∨ x = 64)) :
    let (user, client, network) := unmarshalUsername login
    login = user ∨ login = user ++ b!"/" ++ network ∨ login = user ++ b!"@" ++ client ∨
    login = user ++ b!"/" ++ network ++ b!"@" ++ client ∨
    login = user ++ b!"@" ++ client ++ b!"/" ++ network := by
  rcases login_cases login with hs | ⟨a, x, b, rfl, hx, ha, hb⟩ | ⟨a, x, m, y, b, rfl, hx, hy, ha, hb⟩
  · rw [unmarshal_none hs]; exact Or.inl rfl
  · rw [unmarshal_one hx ha hb]
    rcases sep_cases.1 hx with rfl | rfl
    · right; left; simp
    · right; right; left; simp
  · rw [unmarshal_two hx hy ha hb]
    rcases sep_cases.1 hx with rfl | rfl <;> rcases sep_cases.1 hy with rfl | rfl
    · exact absurd (Or.inl rfl) (h a _ m b rfl (noSep_iff.2 ha) (noSep_iff.2 hb))
    · right; right; right; left; simp
    · right; right; right; right; simp
    · exact absurd (Or.inr rfl) (h a _ m b rfl (noSep_iff.2 ha) (noSep_iff.2 hb))

/-- The network name may contain separators itself, if the client name comes last. -/
example : unmarshalUsername b!"alice/a/b@c/d@phone" = (b!"alice", b!"phone", b!"a/b@c/d") := by decide

/-- What is left out above: with two separators of the same kind only, what follows the last one is
lost. -/
theorem C29_repeated_separator (user x y : Str) (hu : NoSep user) (hy : NoSep y) :
    unmarshalUsername (user ++ b!"@" ++ x ++ b!"@" ++ y) = (user, x, []) ∧
    unmarshalUsername (user ++ b!"/" ++ x ++ b!"/" ++ y) = (user, [], x) := by
  rw [noSep_iff] at hu hy
  constructor
  · have := unmarshal_two (x := 64) (y := 64) (m := x) rfl rfl hu hy
    simpa using this
  · have := unmarshal_two (x := 47) (y := 47) (m := x) rfl rfl hu hy
    simpa using this

/-! ## C27: registration -/

/-- What is known of a pending connection after a history. -/
private structure RegInv (lib : SaslLib) (evs : List (AuthEnv × RegMsg)) (st : RegState) : Prop where
  pass : st.pass = [] ∨ SentPass (evs.map (·.2)) st.pass
  user : st.username = [] ∨ SentUser (evs.map (·.2)) st.username
  auth : st.authUsername ≠ [] → ∃ imp, AcceptedDuring lib evs st.authUsername imp ∧
    (imp.isSome = st.impersonating)
  imp : st.impersonating = true → st.authUsername ≠ []
  sasl : ∀ s, st.sasl = some s → ∃ chunks : List Str, s.pending = chunks.flatten ∧
    ∀ c ∈ chunks, ∃ p rest, (⟨b!"AUTHENTICATE", p :: rest⟩ : RegMsg) ∈ evs.map (·.2) ∧
      (c = p ∨ (c = [] ∧ p = b!"+"))

private theorem AcceptedDuring.mono {lib : SaslLib} {evs : List (AuthEnv × RegMsg)} {u : Str} {imp : Option Str}
    (h : AcceptedDuring lib evs u imp) (ev : AuthEnv × RegMsg) : AcceptedDuring lib (evs ++ [ev]) u imp := by
  obtain ⟨pre, e, post, rfl, h⟩ := h
  exact ⟨pre, e, post ++ [ev], by simp, h⟩

/-- A step that does not touch the fields the invariant speaks of. -/
private theorem RegInv.mono {lib : SaslLib} {evs : List (AuthEnv × RegMsg)} {st st' : RegState}
    (h : RegInv lib evs st) (ev : AuthEnv × RegMsg) (h1 : st'.pass = st.pass) (h2 : st'.username = st.username)
    (h3 : st'.authUsername = st.authUsername) (h4 : st'.impersonating = st.impersonating)
    (h5 : st'.sasl = st.sasl ∨ st'.sasl = none) : RegInv lib (evs ++ [ev]) st' := by
  refine ⟨?_, ?_, ?_, ?_, ?_⟩
  · rw [h1]
    rcases h.pass with h | ⟨r, h⟩
    · exact Or.inl h
    · exact Or.inr ⟨r, by simp [h]⟩
  · rw [h2]
    rcases h.user with h | ⟨r, h⟩
    · exact Or.inl h
    · exact Or.inr ⟨r, by simp [h]⟩
  · rw [h3, h4]
    intro hne
    obtain ⟨imp, ha, hi⟩ := h.auth hne
    exact ⟨imp, ha.mono ev, hi⟩
  · rw [h3, h4]; exact h.imp
  · intro s hs
    rcases h5 with h5 | h5
    · rw [h5] at hs
      obtain ⟨chunks, hc, hm⟩ := h.sasl s hs
      refine ⟨chunks, hc, ?_⟩
      intro c hcm
      obtain ⟨p, r, hp, hpc⟩ := hm c hcm
      exact ⟨p, r, by rw [List.map_append, List.mem_append]; exact Or.inl hp, hpc⟩
    · rw [h5] at hs; cases hs

/-- What a step of the SASL exchange yields. -/
private theorem authenticate_spec {lib : SaslLib} {evs : List (AuthEnv × RegMsg)} {st : RegState}
    (h : RegInv lib evs st) (env : AuthEnv) (params : List Str) :
    let r := handleAuthenticate lib st params
    let evs' := evs ++ [(env, (⟨b!"AUTHENTICATE", params⟩ : RegMsg))]
    (∀ s, r.1 = some s → ∃ chunks : List Str, s.pending = chunks.flatten ∧
      ∀ c ∈ chunks, ∃ p rest, (⟨b!"AUTHENTICATE", p :: rest⟩ : RegMsg) ∈ evs'.map (·.2) ∧
        (c = p ∨ (c = [] ∧ p = b!"+"))) ∧
    (∀ creds, r.2.2 = some creds → r.2.1 = .ok ∧ ∃ resp, SentResponse lib (evs'.map (·.2)) resp ∧
      ((∃ i u p, creds = .plain i u p ∧ resp = i ++ 0 :: u ++ 0 :: p) ∨
       (∃ u t, creds = .oauth u t ∧ lib.oauthParse resp = some (u, t)) ∨ creds = .anonymous)) := by
  unfold handleAuthenticate
  split
  · exact ⟨fun s hs => by simp at hs, fun c hc => by simp at hc⟩
  · split
    · exact ⟨fun s hs => by simp at hs, fun c hc => by simp at hc⟩
    · rename_i p ps
      split
      · exact ⟨fun s hs => by simp at hs, fun c hc => by simp at hc⟩
      · split
        · simp only
          split
          · refine ⟨fun s hs => ?_, fun c hc => by simp at hc⟩
            simp only [Option.some.injEq] at hs
            subst hs
            exact ⟨[], rfl, by simp⟩
          · exact ⟨fun s hs => by simp at hs, fun c hc => by simp at hc⟩
        · rename_i s0 hs0
          obtain ⟨chunks, hpend, hch⟩ := h.sasl s0 hs0
          have hch' : ∀ c ∈ chunks ++ [if p = b!"+" then [] else p], ∃ p' rest,
              (⟨b!"AUTHENTICATE", p' :: rest⟩ : RegMsg) ∈
                (evs ++ [(env, (⟨b!"AUTHENTICATE", p :: ps⟩ : RegMsg))]).map (·.2) ∧
              (c = p' ∨ (c = [] ∧ p' = b!"+")) := by
            intro c hc
            rcases List.mem_append.1 hc with hc | hc
            · obtain ⟨p', r, hp, hpc⟩ := hch c hc
              exact ⟨p', r, by rw [List.map_append, List.mem_append]; exact Or.inl hp, hpc⟩
            · simp only [List.mem_singleton] at hc
              refine ⟨p, ps, by simp, ?_⟩
              by_cases hp : p = b!"+"
              · right; rw [hc, if_pos hp]; exact ⟨rfl, hp⟩
              · left; rw [hc, if_neg hp]
          have hfl : s0.pending ++ (if p = b!"+" then [] else p) =
              (chunks ++ [if p = b!"+" then [] else p]).flatten := by
            rw [hpend]; simp
          simp only
          generalize (if p = b!"+" then [] else p) = chunk at hch' hfl ⊢
          split
          · exact ⟨fun s hs => by simp at hs, fun c hc => by simp at hc⟩
          · split
            · refine ⟨fun s hs => ?_, fun c hc => by simp at hc⟩
              simp only [Option.some.injEq] at hs
              subst hs
              exact ⟨_, hfl, hch'⟩
            · split
              · exact ⟨fun s hs => by simp at hs, fun c hc => by simp at hc⟩
              · rename_i resp hresp
                have hsent : SentResponse lib
                    ((evs ++ [(env, (⟨b!"AUTHENTICATE", p :: ps⟩ : RegMsg))]).map (·.2)) resp :=
                  ⟨_, by rw [← hfl]; exact hresp, hch'⟩
                split
                · exact ⟨fun s hs => by simp at hs, fun c hc => by simp at hc⟩
                · rename_i creds hcreds
                  refine ⟨fun s hs => ?_, fun c hc => ?_⟩
                  · simp only [Option.some.injEq] at hs
                    subst hs
                    exact ⟨[], rfl, by simp⟩
                  · simp only [Option.some.injEq] at hc
                    subst hc
                    refine ⟨rfl, resp, hsent, ?_⟩
                    split at hcreds
                    · left
                      unfold plainParse at hcreds
                      split at hcreds
                      · rename_i i u pw hsplit
                        have hj := joinStr_splitByte 0 resp
                        rw [hsplit] at hj
                        simp only [Option.some.injEq] at hcreds
                        exact ⟨i, u, pw, hcreds.symm, by rw [← hj]; simp [joinStr]⟩
                      · cases hcreds
                    · split at hcreds
                      · right; left
                        cases ho : lib.oauthParse resp with
                        | none => rw [ho] at hcreds; cases hcreds
                        | some q =>
                          rw [ho] at hcreds
                          simp only [Option.map_some, Option.some.injEq] at hcreds
                          exact ⟨q.1, q.2, hcreds.symm, rfl⟩
                      · right; right
                        simp only [Option.some.injEq] at hcreds
                        exact hcreds.symm

private theorem checkCreds_spec {lib : SaslLib} {env : AuthEnv} {msgs : List RegMsg} {creds : Creds} {resp : Str}
    {u c n : Str} {imp : Bool} (hs : SentResponse lib msgs resp)
    (hc : (∃ i u p, creds = .plain i u p ∧ resp = i ++ 0 :: u ++ 0 :: p) ∨
       (∃ u t, creds = .oauth u t ∧ lib.oauthParse resp = some (u, t)) ∨ creds = .anonymous)
    (h : checkCreds env creds = some (u, c, n, imp)) : ∃ who, Accepts lib env msgs u who ∧ who.isSome = imp := by
  rcases hc with ⟨i, login, pw, rfl, rfl⟩ | ⟨user, tok, rfl, ho⟩ | rfl
  · simp only [checkCreds, ← unmarshal_user] at h
    split at h
    · cases h
    · rename_i auth ha
      split at h
      · cases h
      · rename_i hok
        have hok : auth (loginUser login) pw = true := by
          rw [← unmarshal_user]; simpa using hok
        split at h
        · split at h
          · cases h
          · rename_i adm hadm
            split at h
            · cases h
            · rename_i had
              split at h
              · cases h
              · rename_i x hx
                simp only [Option.some.injEq, Prod.mk.injEq] at h
                obtain ⟨h1, h2, h3, h4⟩ := h
                rw [unmarshal_user] at h1 hx hadm
                refine ⟨some (loginUser login), ?_, by simp [← h4]⟩
                exact .impersonate auth i login pw adm ha hs h1 hok hadm (by simpa using had)
                  (by rw [← h1, hx]; simp)
        · rename_i hid
          simp only [Option.some.injEq, Prod.mk.injEq] at h
          obtain ⟨h1, h2, h3, h4⟩ := h
          rw [unmarshal_user] at h1
          refine ⟨none, ?_, by simp [← h4]⟩
          refine .plain auth i login pw ha hs ?_ h1 (by rw [← h1]; exact hok)
          by_cases hi : i = []
          · exact Or.inl hi
          · exact Or.inr (Classical.byContradiction fun hne => hid ⟨hi, hne⟩)
  · simp only [checkCreds] at h
    split at h
    · cases h
    · rename_i auth ha
      split at h
      · cases h
      · rename_i username hu
        split at h
        · cases h
        · rename_i hm
          simp only [Option.some.injEq, Prod.mk.injEq] at h
          obtain ⟨h1, h2, h3, h4⟩ := h
          refine ⟨none, ?_, by simp [← h4]⟩
          refine .oauth auth resp user tok ha hs ho ?_ (by rw [hu, h1])
          by_cases hi : user = []
          · exact Or.inl hi
          · right
            rw [← h1]
            exact Classical.byContradiction fun hne => hm ⟨hi, hne⟩
  · cases h

private theorem unregistered_inv {lib : SaslLib} {evs : List (AuthEnv × RegMsg)} {st : RegState}
    (h : RegInv lib evs st) (ev : AuthEnv × RegMsg) :
    RegInv lib (evs ++ [ev]) (handleUnregistered lib ev.1 st ev.2).1 := by
  obtain ⟨env, cmd, params⟩ := ev
  unfold handleUnregistered
  simp only
  split
  · exact h.mono _ rfl rfl rfl rfl (Or.inl rfl)
  split
  · split <;> exact h.mono _ rfl rfl rfl rfl (Or.inl rfl)
  split
  · rename_i hcmd
    split
    · rename_i u x y z rest
      have hm := h.mono (st' := st) (env, (⟨cmd, u :: x :: y :: z :: rest⟩ : RegMsg)) rfl rfl rfl rfl (Or.inl rfl)
      exact ⟨hm.pass, Or.inr ⟨x :: y :: z :: rest, by rw [hcmd]; simp⟩, hm.auth, hm.imp, hm.sasl⟩
    · exact h.mono _ rfl rfl rfl rfl (Or.inl rfl)
  split
  · rename_i hcmd
    split
    · rename_i p rest
      have hm := h.mono (st' := st) (env, (⟨cmd, p :: rest⟩ : RegMsg)) rfl rfl rfl rfl (Or.inl rfl)
      exact ⟨Or.inr ⟨rest, by rw [hcmd]; simp⟩, hm.user, hm.auth, hm.imp, hm.sasl⟩
    · exact h.mono _ rfl rfl rfl rfl (Or.inl rfl)
  split
  · split <;> exact h.mono _ rfl rfl rfl rfl (Or.inl rfl)
  split
  · rename_i hcmd
    subst hcmd
    obtain ⟨ha, hb⟩ := authenticate_spec h env params
    unfold regAuthenticate
    have hm := h.mono (st' := st) (env, (⟨b!"AUTHENTICATE", params⟩ : RegMsg)) rfl rfl rfl rfl (Or.inl rfl)
    generalize handleAuthenticate lib st params = r at ha hb
    obtain ⟨sasl, out, creds⟩ := r
    simp only at ha hb
    split
    · rename_i sasl' creds' heq
      simp only [Prod.mk.injEq] at heq
      obtain ⟨rfl, rfl, rfl⟩ := heq
      obtain ⟨_, resp, hsent, hcr⟩ := hb creds' rfl
      simp only
      split
      · exact h.mono _ rfl rfl rfl rfl (Or.inr rfl)
      · rename_i u c n imp hck
        split
        · exact ⟨hm.pass, hm.user, hm.auth, hm.imp, ha⟩
        · rename_i hne
          obtain ⟨who, hacc, hwho⟩ := checkCreds_spec hsent hcr hck
          refine ⟨hm.pass, hm.user, ?_, ?_, ?_⟩
          · intro _
            exact ⟨who, ⟨evs, (env, ⟨b!"AUTHENTICATE", params⟩), [], rfl, hacc⟩, hwho⟩
          · intro _; exact hne
          · intro s hs; cases hs
    · rename_i sasl' out' creds' hne heq
      simp only [Prod.mk.injEq] at heq
      obtain ⟨rfl, rfl, rfl⟩ := heq
      exact ⟨hm.pass, hm.user, hm.auth, hm.imp, ha⟩
  split
  · unfold regBouncer
    split
    · exact h.mono _ rfl rfl rfl rfl (Or.inl rfl)
    · split
      · split
        · exact h.mono _ rfl rfl rfl rfl (Or.inl rfl)
        · split
          · exact h.mono _ rfl rfl rfl rfl (Or.inl rfl)
          · split <;> exact h.mono _ rfl rfl rfl rfl (Or.inl rfl)
      · exact h.mono _ rfl rfl rfl rfl (Or.inl rfl)
  split <;> exact h.mono _ rfl rfl rfl rfl (Or.inl rfl)

private theorem register_spec {lib : SaslLib} {evs : List (AuthEnv × RegMsg)} {ev : AuthEnv × RegMsg}
    {st : RegState} (h : RegInv lib (evs ++ [ev]) st) (hu : st.username ≠ []) {u c n : Str}
    (hr : register ev.1 st = some (u, c, n)) :
    ∃ who, AcceptedDuring lib (evs ++ [ev]) u who ∧ who.isSome = st.impersonating := by
  unfold register at hr
  simp only at hr
  by_cases ha : st.authUsername = []
  · rw [if_pos ha] at hr
    have himp : st.impersonating = false := by
      cases hi : st.impersonating with
      | false => rfl
      | true => exact absurd ha (h.imp hi)
    by_cases hp : st.pass = []
    · rw [if_pos hp] at hr; cases hr
    · rw [if_neg hp] at hr
      split at hr
      · cases hr
      · rename_i st' hst'
        split at hst'
        · cases hst'
        · rename_i f hf
          split at hst'
          · cases hst'
          · rename_i hok
            simp only [Option.some.injEq] at hst'
            subst hst'
            split at hr
            · cases hr
            · split at hr
              · cases hr
              · simp only [setAuthUsername, Option.some.injEq, Prod.mk.injEq] at hr
                obtain ⟨h1, _⟩ := hr
                rw [unmarshal_user] at h1 hok
                refine ⟨none, ⟨evs, ev, [], rfl, ?_⟩, by simp [himp]⟩
                refine .pass f st.username st.pass hf ?_ ?_ h1 (by rw [← h1]; simpa using hok)
                · rcases h.user with h | h
                  · exact absurd h hu
                  · exact h
                · rcases h.pass with h | h
                  · exact absurd h hp
                  · exact h
  · rw [if_neg ha] at hr
    simp only at hr
    split at hr
    · cases hr
    · split at hr
      · cases hr
      · simp only [Option.some.injEq, Prod.mk.injEq] at hr
        obtain ⟨h1, _⟩ := hr
        obtain ⟨imp, hacc, hi⟩ := h.auth ha
        exact ⟨imp, h1 ▸ hacc, hi⟩

private theorem run_reg (lib : SaslLib) (sasl : Str) (history : Bool) (evs : List (AuthEnv × RegMsg)) :
    (∀ st, regRun lib sasl history evs = .pending st → RegInv lib evs st) ∧
    (∀ u c n id imp, regRun lib sasl history evs = .registered u c n id imp →
      ∃ who, AcceptedDuring lib evs u who ∧ who.isSome = imp) := by
  induction evs using snocInd with
  | nil =>
    refine ⟨?_, ?_⟩
    · intro st hst
      simp only [regRun, List.foldl_nil, RegConn.pending.injEq] at hst
      subst hst
      exact ⟨Or.inl rfl, Or.inl rfl, fun h => absurd rfl h, fun h => (by cases h), fun s hs => by cases hs⟩
    · intro u c n id imp h; cases h
  | snoc evs ev ih =>
    have hrun : regRun lib sasl history (evs ++ [ev]) = regStep lib (regRun lib sasl history evs) ev := by
      simp [regRun, List.foldl_append]
    rw [hrun]
    cases hq : regRun lib sasl history evs with
    | closed =>
      refine ⟨fun st hst => ?_, fun u c n id imp h => ?_⟩ <;> simp [regStep] at *
    | registered u c n id imp =>
      refine ⟨fun st hst => ?_, fun u' c' n' id' imp' h => ?_⟩
      · simp [regStep] at hst
      · simp only [regStep, RegConn.registered.injEq] at h
        obtain ⟨rfl, rfl, rfl, rfl, rfl⟩ := h
        obtain ⟨who, hacc, hi⟩ := ih.2 _ _ _ _ _ hq
        exact ⟨who, hacc.mono ev, hi⟩
    | pending st =>
      have hinv := unregistered_inv (ih.1 st hq) ev
      simp only [regStep]
      generalize handleUnregistered lib ev.1 st ev.2 = r at hinv
      obtain ⟨st', out⟩ := r
      simp only at hinv ⊢
      split
      · refine ⟨fun st hst => (by cases hst), fun u c n id imp h => by cases h⟩
      · split
        · refine ⟨fun st'' hst => ?_, fun u c n id imp h => by cases h⟩
          simp only [RegConn.pending.injEq] at hst
          subst hst; exact hinv
        · rename_i hcond
          split
          · rename_i u c n hreg
            refine ⟨fun st hst => (by cases hst), fun u' c' n' id imp h => ?_⟩
            simp only [RegConn.registered.injEq] at h
            obtain ⟨rfl, rfl, rfl, rfl, rfl⟩ := h
            exact register_spec hinv (fun h => hcond (Or.inr (Or.inl h))) hreg
          · refine ⟨fun st hst => (by cases hst), fun u c n id imp h => by cases h⟩

/-- **C27**: whatever messages a client sends, and however the authenticators and the user database answer
and change meanwhile, if the connection completes registration as user `u` then at some moment before the
authenticator accepted credentials the client had sent, for `u` or for an administrator impersonating
`u`. -/
theorem C27_authenticated (lib : SaslLib) (sasl : Str) (history : Bool) (evs : List (AuthEnv × RegMsg))
    (u client network : Str) (id : Int) (imp : Bool)
    (h : regRun lib sasl history evs = .registered u client network id imp) :
    ∃ who, AcceptedDuring lib evs u who :=
  let ⟨who, ha, _⟩ := (run_reg lib sasl history evs).2 u client network id imp h
  ⟨who, ha⟩

/-- An authenticator that knows Alice and an administrator. -/
private def exEnv : AuthEnv :=
  ⟨some (fun u p => (u == b!"alice" && p == b!"s3cret") || (u == b!"root" && p == b!"toor")), none,
   fun u => if u = b!"alice" then some ⟨false, true⟩ else if u = b!"root" then some ⟨true, true⟩ else none⟩

/-- Base64 decoding replaced by reading dots as NUL. -/
private def exLib : SaslLib := ⟨fun s => some (s.map (fun c => if c = 46 then 0 else c)), fun _ => none⟩

/-- Registration by PASS; by SASL; by an administrator; and a client that does not know the password. -/
example :
    regRun exLib b!"PLAIN" true [(exEnv, ⟨b!"PASS", [b!"s3cret"]⟩), (exEnv, ⟨b!"NICK", [b!"al"]⟩),
      (exEnv, ⟨b!"USER", [b!"alice/libera@phone", b!"0", b!"*", b!"A"]⟩)] =
        .registered b!"alice" b!"phone" b!"libera" 0 false ∧
    regRun exLib b!"PLAIN" true [(exEnv, ⟨b!"CAP", [b!"REQ", b!"sasl"]⟩), (exEnv, ⟨b!"NICK", [b!"al"]⟩),
      (exEnv, ⟨b!"USER", [b!"alice", b!"0", b!"*", b!"A"]⟩), (exEnv, ⟨b!"AUTHENTICATE", [b!"PLAIN"]⟩),
      (exEnv, ⟨b!"AUTHENTICATE", [b!"alice.root.toor"]⟩), (exEnv, ⟨b!"CAP", [b!"END"]⟩)] =
        .registered b!"alice" [] [] 0 true ∧
    regRun exLib b!"PLAIN" true [(exEnv, ⟨b!"PASS", [b!"guess"]⟩), (exEnv, ⟨b!"NICK", [b!"al"]⟩),
      (exEnv, ⟨b!"USER", [b!"alice", b!"0", b!"*", b!"A"]⟩)] = .closed := by decide +kernel

/-- The commands a client may give before it is registered. -/
def earlyCommands : List Str :=
  [b!"QUIT", b!"NICK", b!"USER", b!"PASS", b!"CAP", b!"AUTHENTICATE", b!"BOUNCER", b!"AWAY"]

/-- **C27**: before registration every other command is answered with an error and does nothing. -/
theorem C27_others (lib : SaslLib) (env : AuthEnv) (st : RegState) (msg : RegMsg) (h : msg.command ∉ earlyCommands) :
    handleUnregistered lib env st msg = (st, .ircError) := by
  simp only [earlyCommands, List.mem_cons, List.not_mem_nil, or_false, not_or] at h
  obtain ⟨h1, h2, h3, h4, h5, h6, h7, h8⟩ := h
  unfold handleUnregistered
  rw [if_neg h1, if_neg h2, if_neg h3, if_neg h4, if_neg h5, if_neg h6, if_neg h7, if_neg h8]

example : b!"PRIVMSG" ∉ earlyCommands := by decide

/-- **C27**: whatever a client that is not registered sends, no more than 10 KiB of a SASL response are kept for it. -/
theorem C27_bounded (lib : SaslLib) (sasl : Str) (history : Bool) (evs : List (AuthEnv × RegMsg)) (st : RegState)
    (h : regRun lib sasl history evs = .pending st) (s : DSasl) (hs : st.sasl = some s) : s.pending.length ≤ 10240 := by
  have hauth : ∀ (st : RegState) (params : List Str) (s : DSasl), (∀ s, st.sasl = some s → s.pending.length ≤ 10240) →
      (handleAuthenticate lib st params).1 = some s → s.pending.length ≤ 10240 := by
    intro st params s hst
    unfold handleAuthenticate
    split
    · intro h; cases h
    · split
      · intro h; cases h
      · rename_i p _
        split
        · intro h; cases h
        · split
          · dsimp only
            split <;> intro h
            · obtain rfl := Option.some.inj h; simp
            · cases h
          · rename_i s0 h0
            dsimp only
            generalize (if p = b!"+" then [] else p) = chunk
            split
            · intro h; cases h
            · rename_i hle
              split
              · intro h
                obtain rfl := Option.some.inj h
                simp only [List.length_append]
                omega
              · split
                · intro h; cases h
                · split <;> intro h
                  · cases h
                  · obtain rfl := Option.some.inj h; simp
  induction evs using snocInd generalizing st s with
  | nil =>
    simp only [regRun, List.foldl_nil, RegConn.pending.injEq] at h
    subst h
    cases hs
  | snoc evs ev ih =>
    have hrun : regRun lib sasl history (evs ++ [ev]) = regStep lib (regRun lib sasl history evs) ev := by
      simp [regRun, List.foldl_append]
    rw [hrun] at h
    cases hq : regRun lib sasl history evs with
    | closed => rw [hq] at h; simp [regStep] at h
    | registered u c n id imp => rw [hq] at h; simp [regStep] at h
    | pending st0 =>
      rw [hq] at h
      have h0 : ∀ s, st0.sasl = some s → s.pending.length ≤ 10240 := fun s hs => ih st0 hq s hs
      have hstep : ∀ s, (handleUnregistered lib ev.1 st0 ev.2).1.sasl = some s → s.pending.length ≤ 10240 := by
        intro s
        unfold handleUnregistered
        repeat' split
        all_goals first
          | exact h0 s
          | skip
        · unfold regAuthenticate
          have ha := hauth st0 ev.2.params s h0
          split
          · rename_i sasl' creds he
            rw [he] at ha
            dsimp only
            split
            · intro h; cases h
            · split
              · exact ha
              · intro h; cases h
          · rename_i sasl' out creds he hx
            rw [hx] at ha
            exact ha
        · unfold regBouncer
          repeat' split
          all_goals exact h0 s
      simp only [regStep] at h
      generalize handleUnregistered lib ev.1 st0 ev.2 = r at hstep h
      obtain ⟨st', out⟩ := r
      simp only at h hstep
      split at h
      · cases h
      · split at h
        · simp only [RegConn.pending.injEq] at h
          subst h
          exact hstep s hs
        · split at h <;> cases h

example : let chunk := (List.replicate 400 97 : Str)
    (match regRun exLib b!"PLAIN" true ((exEnv, ⟨b!"CAP", [b!"REQ", b!"sasl"]⟩) :: (exEnv, ⟨b!"AUTHENTICATE", [b!"PLAIN"]⟩) ::
      List.replicate 2 (exEnv, ⟨b!"AUTHENTICATE", [chunk]⟩)) with
    | .pending st => st.sasl.map (·.pending.length)
    | _ => none) = some 800 := by
  decide +kernel

/-! ## C28: impersonation -/

/-- **C28 (partial)**: a connection registered as `u` on the strength of somebody else's credentials is
marked as such, and that somebody was an administrator when the credentials were accepted.  Missing: that
the administrator's account was enabled, which the code does not check (see below). -/
theorem C28_admin_partial (lib : SaslLib) (sasl : Str) (history : Bool) (evs : List (AuthEnv × RegMsg))
    (u client network : Str) (id : Int) (imp : Bool)
    (h : regRun lib sasl history evs = .registered u client network id imp) :
    (imp = true ∧ ∃ who, AcceptedDuring lib evs u (some who)) ∨
    (imp = false ∧ AcceptedDuring lib evs u none) := by
  obtain ⟨who, ha, hi⟩ := (run_reg lib sasl history evs).2 u client network id imp h
  cases who with
  | none => right; exact ⟨hi.symm, ha⟩
  | some w => left; exact ⟨hi.symm, w, ha⟩

/-- What `AcceptedDuring` with somebody else's credentials means. -/
theorem C28_admin_meaning {lib : SaslLib} {env : AuthEnv} {msgs : List RegMsg} {u who : Str}
    (h : Accepts lib env msgs u (some who)) :
    (∃ rec, env.users who = some rec ∧ rec.admin = true) ∧
    ∃ auth pw, env.plain = some auth ∧ auth who pw = true := by
  cases h with
  | impersonate auth identity login pw admin hp hr he ha hu hadm hx =>
    exact ⟨⟨admin, hu, hadm⟩, auth, pw, hp, ha⟩

/-- **C28**: a SASL exchange with another authorization identity by somebody who is not an administrator
fails, and leaves the client as unauthenticated (or authenticated as the same user) as it was. -/
theorem C28_refused (lib : SaslLib) (env : AuthEnv) (st : RegState) (params : List Str)
    (identity login pw : Str) (s : Option DSasl)
    (hc : handleAuthenticate lib st params = (s, .ok, some (.plain identity login pw)))
    (hi : identity ≠ [] ∧ identity ≠ login)
    (hadm : ∀ rec, env.users (loginUser login) = some rec → rec.admin = false) :
    let r := regAuthenticate lib env st params
    r.2 = .ok ∧ r.1.authUsername = st.authUsername ∧ r.1.impersonating = st.impersonating ∧ r.1.sasl = none := by
  unfold regAuthenticate
  rw [hc]
  have : checkCreds env (.plain identity login pw) = none := by
    simp only [checkCreds]
    split
    · rfl
    · split
      · rfl
      · rw [unmarshal_user]
        split
        · rfl
        · rename_i u hu
          simp [hadm u hu]
  simp only [this]
  exact ⟨trivial, trivial, trivial, trivial⟩

example :
    let st := ((handleUnregistered exLib exEnv ({ newRegState b!"PLAIN" true with sasl := some ⟨b!"PLAIN", []⟩ })
      ⟨b!"CAP", [b!"REQ", b!"sasl"]⟩).1)
    handleAuthenticate exLib st [b!"root.alice.s3cret"] =
      (some ⟨b!"PLAIN", []⟩, .ok, some (.plain b!"root" b!"alice" b!"s3cret")) ∧
    (∀ rec, exEnv.users (loginUser b!"alice") = some rec → rec.admin = false) := by
  refine ⟨by decide +kernel, ?_⟩
  intro rec h
  have : exEnv.users (loginUser b!"alice") = some ⟨false, true⟩ := by decide +kernel
  rw [this] at h; cases h; rfl

/-- **C28 (violated)**: an administrator whose account has been disabled can still register as anybody
else. -/
theorem C28_disabled_admin_violated :
    ∃ (env : AuthEnv) (lib : SaslLib) (evs : List (AuthEnv × RegMsg)),
      env.users b!"root" = some ⟨true, false⟩ ∧ (∀ ev ∈ evs, ev.1 = env) ∧
      SentResponse lib (evs.map (·.2)) (b!"alice" ++ 0 :: b!"root" ++ 0 :: b!"toor") ∧
      ¬ SentPass (evs.map (·.2)) b!"s3cret" ∧
      regRun lib b!"PLAIN" true evs = .registered b!"alice" [] [] 0 true := by
  let env : AuthEnv := ⟨some (fun u p => u == b!"root" && p == b!"toor"), none,
    fun u => if u = b!"alice" then some ⟨false, true⟩ else if u = b!"root" then some ⟨true, false⟩ else none⟩
  refine ⟨env, exLib, [(env, ⟨b!"CAP", [b!"REQ", b!"sasl"]⟩), (env, ⟨b!"NICK", [b!"al"]⟩),
      (env, ⟨b!"USER", [b!"alice", b!"0", b!"*", b!"A"]⟩), (env, ⟨b!"AUTHENTICATE", [b!"PLAIN"]⟩),
      (env, ⟨b!"AUTHENTICATE", [b!"alice.root.toor"]⟩), (env, ⟨b!"CAP", [b!"END"]⟩)], ?_, ?_, ?_, ?_, ?_⟩
  · decide +kernel
  · intro ev hev
    simp only [List.mem_cons, List.not_mem_nil, or_false] at hev
    rcases hev with rfl | rfl | rfl | rfl | rfl | rfl <;> rfl
  · refine ⟨[b!"alice.root.toor"], by decide +kernel, ?_⟩
    intro c hc
    simp only [List.mem_singleton] at hc
    exact ⟨b!"alice.root.toor", [], by simp, Or.inl hc⟩
  · rintro ⟨r, h⟩
    simp at h
  · decide +kernel

end Verif.Props
