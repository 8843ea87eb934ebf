import Verif.Model.Network
import Verif.Proof.Url

/-! # C52: the attributes of a network -/

namespace Verif.Props
open Verif.Model Verif.Proof

/-! ## Specification -/

/-- Characters of host names, IPv4 addresses and ports. -/
def HostChar (c : Byte) : Prop :=
  32 < c ∧ c ≠ 127 ∧ c ≠ 47 ∧ c ≠ 63 ∧ c ≠ 35 ∧ c ≠ 64 ∧ c ≠ 58 ∧ c ≠ 91 ∧ c ≠ 93

/-- A host name or IPv4 address, alone or with a port. -/
def PlainHost (h : Str) : Prop :=
  (h ≠ [] ∧ ∀ c ∈ h, HostChar c) ∨
  ∃ name port, h = name ++ 58 :: port ∧ name ≠ [] ∧ port ≠ [] ∧ (∀ c ∈ name, HostChar c) ∧ ∀ c ∈ port, HostChar c

/-- The client sends back some of the address attributes it has been told, unchanged. -/
def SentBack (told sent : NetAttrs) : Prop :=
  (sent.host = none ∨ sent.host = told.host) ∧ (sent.port = none ∨ sent.port = told.port) ∧
  (sent.tls = none ∨ sent.tls = told.tls) ∧ (sent.host.isSome ∨ sent.port.isSome ∨ sent.tls.isSome) ∧
  sent.name = none ∧ sent.nickname = none ∧ sent.username = none ∧ sent.realname = none ∧ sent.pass = none ∧
  sent.unknown = false

/-- The property of the statement: the bouncer goes on connecting to the same server. -/
def AttrsRoundTrip (lib : UrlLib) : Prop :=
  ∀ st r sent, checkNetwork lib st r = true → SentBack (fillNetworkAddrAttrs lib r.addr) sent →
    ∃ r', updateNetworkAttrs lib r sent = some r' ∧ dialTarget lib r'.addr = dialTarget lib r.addr

/-! ## Proofs -/

theorem plain_host_chars {h : Str} (p : PlainHost h) :
    h ≠ [] ∧ ∀ c ∈ h, 32 < c ∧ c ≠ 127 ∧ c ≠ 47 ∧ c ≠ 63 ∧ c ≠ 35 ∧ c ≠ 64 := by
  rcases p with ⟨h0, h1⟩ | ⟨n, q, rfl, h0, -, h1, h2⟩
  · refine ⟨h0, fun c hc => ?_⟩
    obtain ⟨a, b, c, d, e, f, -⟩ := h1 c hc
    exact ⟨a, b, c, d, e, f⟩
  · refine ⟨by simp, fun c hc => ?_⟩
    rcases List.mem_append.1 hc with hc | hc
    · obtain ⟨a, b, c, d, e, f, -⟩ := h1 c hc
      exact ⟨a, b, c, d, e, f⟩
    · rcases List.mem_cons.1 hc with rfl | hc
      · decide
      · obtain ⟨a, b, c, d, e, f, -⟩ := h2 c hc
        exact ⟨a, b, c, d, e, f⟩

private theorem takeWhile_all {p : Byte → Bool} {l : Str} (h : ∀ c ∈ l, p c = true) : l.takeWhile p = l ∧ l.dropWhile p = [] := by
  induction l with
  | nil => exact ⟨rfl, rfl⟩
  | cons c l ih =>
    have := ih (fun d hd => h d (by simp [hd]))
    simp [h c (by simp), this]

private theorem cutLast_eq_none {x : Byte} {s : Str} (h : x ∉ s) : cutLast x s = none := by
  cases hc : cutLast x s with
  | none => rfl
  | some r => obtain ⟨a, b⟩ := r; exact absurd (by rw [(cutLast_some hc).1]; simp) h

private theorem cutLast_byte {x : Byte} {a b : Str} (h : x ∉ b) : cutLast x (a ++ x :: b) = some (a, b) := by
  induction a with
  | nil => simp [cutLast, cutLast_eq_none h]
  | cons c a ih => rw [List.cons_append, cutLast, ih]

/-- The parsing of `scheme://host`. -/
theorem parse_plain_host {lib : UrlLib} {h : Str} (p : PlainHost h) (hl : lib.parseHost h = some h)
    (scheme : Str) (hs : scheme = b!"ircs" ∨ scheme = b!"irc+insecure") :
    urlParse lib (scheme ++ b!"://" ++ h) = some ⟨scheme, false, h, [], [], []⟩ := by
  obtain ⟨hne, hc⟩ := plain_host_chars p
  have hall : ∀ c ∈ scheme ++ b!"://" ++ h, c ≠ 35 ∧ c ≠ 63 ∧ ¬ (c < 32 ∨ c = 127) := by
    intro c hcm
    rcases List.mem_append.1 hcm with hcm | hcm
    · have : ∀ c ∈ scheme ++ b!"://", c ≠ 35 ∧ c ≠ 63 ∧ ¬ (c < 32 ∨ c = 127) := by
        rcases hs with rfl | rfl <;> decide
      exact this c hcm
    · have := hc c hcm
      omega
  unfold urlParse
  rw [show b!"#" = [35] from rfl, cutStr_byte_none 35 _ (fun hm => (hall 35 hm).1 rfl)]
  dsimp only
  unfold urlParseNoFrag
  have h1 : (scheme ++ b!"://" ++ h).any (fun c => decide (c < 32 ∨ c = 127)) = false := by
    rw [List.any_eq_false]
    intro c hcm
    simpa using (hall c hcm).2.2
  rw [h1]
  have h2 : ¬ (scheme ++ b!"://" ++ h = b!"*") := by
    intro he
    rcases hs with rfl | rfl <;> simp at he
  rw [if_neg (by simp), if_neg h2]
  have h3 : getScheme (scheme ++ b!"://" ++ h) = some (scheme, b!"//" ++ h) := by
    rcases hs with rfl | rfl <;> simp [getScheme, getSchemeLoop, isAlpha]
  rw [h3]
  dsimp only
  have h4 : cutQuery (b!"//" ++ h) = (b!"//" ++ h, []) := by
    unfold cutQuery
    rw [show b!"?" = [63] from rfl, cutStr_byte_none 63 _ (fun hm => by
      rcases List.mem_append.1 hm with hm | hm
      · simp at hm
      · exact (hc 63 hm).2.2.2.1 rfl)]
  have h5 : asciiLower scheme = scheme := by rcases hs with rfl | rfl <;> decide
  rw [h4, h5]
  dsimp only
  have h6 : hasPrefix b!"/" (b!"//" ++ h) = true := rfl
  have h7 : hasPrefix b!"//" (b!"//" ++ h) = true := rfl
  have hsne : scheme ≠ [] := by rcases hs with rfl | rfl <;> decide
  rw [h6, h7, if_neg (by simp), if_neg (by simp), if_pos ⟨Or.inl hsne, rfl⟩]
  have h8 : (b!"//" ++ h).drop 2 = h := rfl
  obtain ⟨h9, h10⟩ := takeWhile_all (p := fun c => decide (c ≠ 47)) (l := h) (fun c hm => by simpa using (hc c hm).2.2.1)
  rw [h8, h9, h10]
  have h11 : parseAuthority lib h = some (false, h) := by
    unfold parseAuthority
    rw [cutLast_eq_none (fun hm => (hc 64 hm).2.2.2.2.2 rfl), hl]
    rfl
  rw [h11]
  rfl

theorem no_scheme {h : Str} (hc : ∀ c ∈ h, c ≠ 47) : cutStr b!"://" h = none := by
  cases hx : cutStr b!"://" h with
  | none => rfl
  | some r =>
    obtain ⟨a, b⟩ := r
    exact absurd rfl (hc 47 (by rw [cutStr_some hx]; simp))

private theorem cut_scheme (t : Str) : (cutStr b!"://" (b!"irc+insecure://" ++ t)).isNone = false := by
  simp [cutStr]

private theorem dial_back {lib : UrlLib} {h : Str} (p : PlainHost h) (hl : lib.parseHost h = some h) :
    dialTarget lib h = some (.tls h) ∧ dialTarget lib (b!"irc+insecure://" ++ h) = some (.plain h) := by
  obtain ⟨-, hc⟩ := plain_host_chars p
  constructor
  · unfold dialTarget netUrl
    have e1 : (cutStr b!"://" h).isNone = true := by rw [no_scheme (fun c hm => (hc c hm).2.2.1)]; rfl
    have e2 := parse_plain_host p hl b!"ircs" (Or.inl rfl)
    have e3 : b!"ircs://" ++ h = b!"ircs" ++ b!"://" ++ h := rfl
    dsimp only
    rw [e1, if_pos rfl, e3, e2]
    rfl
  · unfold dialTarget netUrl
    have e2 := parse_plain_host p hl b!"irc+insecure" (Or.inr rfl)
    have e3 : b!"irc+insecure://" ++ h = b!"irc+insecure" ++ b!"://" ++ h := rfl
    dsimp only
    rw [cut_scheme, if_neg (by simp), e3, e2]
    rfl

theorem split_plain_host {h : Str} (p : PlainHost h) :
    (splitHostPort h = none ∧ ∀ c ∈ h, HostChar c) ∨
    ∃ name port, splitHostPort h = some (name, port) ∧ h = name ++ 58 :: port ∧ name ≠ [] ∧ port ≠ [] := by
  rcases p with ⟨h0, h1⟩ | ⟨n, q, rfl, h0, h0', h1, h2⟩
  · left
    refine ⟨?_, h1⟩
    unfold splitHostPort
    rw [cutLast_eq_none (fun hm => (h1 58 hm).2.2.2.2.2.2.1 rfl)]
  · right
    refine ⟨n, q, ?_, rfl, h0, h0'⟩
    unfold splitHostPort
    rw [cutLast_byte (fun hm => (h2 58 hm).2.2.2.2.2.2.1 rfl)]
    dsimp only
    split
    · rename_i t ht
      cases n with
      | nil => exact absurd rfl h0
      | cons c n =>
        simp only [List.cons_append, List.cons.injEq] at ht
        exact absurd ht.1 (h1 c (by simp)).2.2.2.2.2.2.2.1
    · rw [if_neg]
      intro hor
      have a1 : 58 ∉ n := fun hm => (h1 58 hm).2.2.2.2.2.2.1 rfl
      have a2 : 91 ∉ n := fun hm => (h1 91 hm).2.2.2.2.2.2.2.1 rfl
      have a3 : 93 ∉ n := fun hm => (h1 93 hm).2.2.2.2.2.2.2.2 rfl
      have a4 : 91 ∉ q := fun hm => (h2 91 hm).2.2.2.2.2.2.2.1 rfl
      have a5 : 93 ∉ q := fun hm => (h2 93 hm).2.2.2.2.2.2.2.2 rfl
      rcases hor with h | h | h | h | h
      · exact a1 h
      · exact a2 h
      · exact a3 h
      · exact a4 h
      · exact a5 h

/-- C52 for host names and IPv4 addresses: a client that reads the address of a network and sends it back, or
some of its parts, leaves the server the bouncer connects to as it is, and everything else about the network.
Missing: IPv6 addresses (`C52_violated`). -/
theorem C52_roundtrip_partial (lib : UrlLib) (r : NetRec) (h : Str) (sent : NetAttrs)
    (hd : dialTarget lib r.addr = some (.tls h) ∨ dialTarget lib r.addr = some (.plain h))
    (p : PlainHost h) (hl : lib.parseHost h = some h)
    (hs : SentBack (fillNetworkAddrAttrs lib r.addr) sent) :
    ∃ addr, updateNetworkAttrs lib r sent = some { r with addr := addr } ∧
      dialTarget lib addr = dialTarget lib r.addr := by
  obtain ⟨hne, -⟩ := plain_host_chars p
  obtain ⟨b1, b2⟩ := dial_back p hl
  -- the attributes
  have hfill : ∃ u, netUrl lib r.addr = some u ∧ u.host = h ∧
      ((u.scheme = b!"ircs" ∧ dialTarget lib r.addr = some (.tls h)) ∨
       (u.scheme = b!"irc+insecure" ∧ dialTarget lib r.addr = some (.plain h))) := by
    have hd' := hd
    unfold dialTarget at hd'
    cases hu : netUrl lib r.addr with
    | none => rw [hu] at hd'; rcases hd' with h | h <;> cases h
    | some u =>
      rw [hu] at hd'
      dsimp only at hd'
      refine ⟨u, rfl, ?_⟩
      by_cases h1 : u.scheme = b!"ircs"
      · rw [if_pos h1] at hd'
        rcases hd' with h2 | h2
        · injection h2 with h2
          injection h2 with h2
          refine ⟨h2, Or.inl ⟨h1, ?_⟩⟩
          unfold dialTarget
          rw [hu]
          dsimp only
          rw [if_pos h1, h2]
        · injection h2 with h2; cases h2
      · rw [if_neg h1] at hd'
        by_cases h3 : u.scheme = b!"irc+insecure"
        · rw [if_pos h3] at hd'
          rcases hd' with h2 | h2
          · injection h2 with h2; cases h2
          · injection h2 with h2
            injection h2 with h2
            refine ⟨h2, Or.inr ⟨h3, ?_⟩⟩
            unfold dialTarget
            rw [hu]
            dsimp only
            rw [if_neg h1, if_pos h3, h2]
        · rw [if_neg h3] at hd'
          split at hd'
          · rcases hd' with h | h <;> (injection h with h; cases h)
          · rcases hd' with h | h <;> cases h
  obtain ⟨u, hu, rfl, hsch⟩ := hfill
  obtain ⟨s1, s2, s3, s4, s5, s6, s7, s8, s9, s10⟩ := hs
  -- what is merged is what was told
  have hor : ∀ {o t : Option Str}, (o = none ∨ o = t) → o.or t = t := by
    intro o t h
    rcases h with rfl | rfl
    · rfl
    · cases o <;> rfl
  have hmerge : updateNetworkAttrs lib r sent =
      (if networkAddrFromAttrs (fillNetworkAddrAttrs lib r.addr) = [] then none
       else some { r with addr := networkAddrFromAttrs (fillNetworkAddrAttrs lib r.addr) }) := by
    unfold updateNetworkAttrs
    rw [s10, s5, s6, s7, s8, s9]
    simp only [Option.getD_none]
    rw [if_neg (by simp), if_pos s4, hor s1, hor s2, hor s3]
    rfl
  -- the address
  have haddr : networkAddrFromAttrs (fillNetworkAddrAttrs lib r.addr) =
      (if u.scheme = b!"ircs" then u.host else b!"irc+insecure://" ++ u.host) := by
    unfold fillNetworkAddrAttrs
    rw [hu]
    dsimp only
    rw [if_pos (hsch.imp (·.1) (·.1))]
    have htls : ∀ (x : Str), (if (if u.scheme = b!"ircs" then b!"1" else b!"0") = b!"0" then b!"irc+insecure://" ++ x else x) =
        (if u.scheme = b!"ircs" then x else b!"irc+insecure://" ++ x) := by
      intro x
      by_cases h1 : u.scheme = b!"ircs"
      · simp [h1]
      · simp [h1]
    rcases split_plain_host p with ⟨hsp, -⟩ | ⟨name, port, hsp, heq, hn0, hp0⟩
    · rw [hsp]
      unfold networkAddrFromAttrs
      simp only [Option.getD_some, Option.getD_none, ne_eq, not_true_eq_false, if_false, hne]
      exact htls _
    · rw [hsp]
      unfold networkAddrFromAttrs
      simp only [Option.getD_some, ne_eq, hn0, hp0, not_false_eq_true, if_true, if_false]
      rw [htls]
      have : name ++ b!":" ++ port = u.host := by rw [heq]; simp
      rw [this]
  rw [hmerge, haddr]
  rcases hsch with ⟨h1, h2⟩ | ⟨h1, h2⟩
  · refine ⟨u.host, ?_, by rw [b1, h2]⟩
    rw [if_pos h1, if_neg hne]
  · have hx : ¬ u.scheme = b!"ircs" := by rw [h1]; decide
    refine ⟨b!"irc+insecure://" ++ u.host, ?_, by rw [b2, h2]⟩
    rw [if_neg hx, if_neg (by simp)]

/-- A library that takes every host as it is. -/
def hostLibEx : UrlLib := { parseHost := fun s => some s, validUserinfo := fun _ => true }

/-- A user without networks. -/
def nwStateEx : NwState :=
  { username := b!"alice", nick := [], realname := [], admin := false, maxNetworks := -1, cfgMax := -1, networks := [] }

/-- C52 does not hold for IPv6 addresses: the brackets are lost, and the address that comes back is another one. -/
theorem C52_violated : ¬ AttrsRoundTrip hostLibEx := by
  intro h
  have := h nwStateEx { addr := b!"[::1]:6697" }
    { host := some b!"::1", port := some b!"6697", tls := some b!"1" } (by decide +kernel)
    ⟨Or.inr (by decide +kernel), Or.inr (by decide +kernel), Or.inr (by decide +kernel), by decide, rfl, rfl, rfl, rfl, rfl, rfl⟩
  obtain ⟨r', h1, h2⟩ := this
  have e : updateNetworkAttrs hostLibEx { addr := b!"[::1]:6697" }
    { host := some b!"::1", port := some b!"6697", tls := some b!"1" } = some { addr := b!"::1:6697" } := by decide +kernel
  rw [e] at h1
  injection h1 with h1
  subst h1
  exact absurd h2 (by decide +kernel)

/-! ## The theorems are not about nothing -/

example : PlainHost b!"irc.libera.chat:6697" :=
  Or.inr ⟨b!"irc.libera.chat", b!"6697", by decide, by decide, by decide, by unfold HostChar; decide, by unfold HostChar; decide⟩

example : dialTarget hostLibEx b!"irc+insecure://irc.libera.chat:6667" = some (.plain b!"irc.libera.chat:6667") ∧
    fillNetworkAddrAttrs hostLibEx b!"irc+insecure://irc.libera.chat:6667" =
      { host := some b!"irc.libera.chat", port := some b!"6667", tls := some b!"0" } := by decide +kernel

end Verif.Props
