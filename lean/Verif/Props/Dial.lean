import Verif.Spec.Dial
import Verif.Props.NetAttrs
import Verif.Props.Network
import Verif.Props.UserIp

/-! # C78: the bouncer talks to the server it was told to -/

namespace Verif.Props
open Verif.Model Verif.Spec Verif.Proof

/-! ## Fingerprints -/

private theorem hexDigit_lower {n : Nat} (h : n < 16) {c : Byte} :
    (hexDigit n = (if 65 ≤ c ∧ c ≤ 90 then c + 32 else c)) ↔ hexDigitVal c = some n := by
  unfold hexDigit hexDigitVal
  constructor
  · intro he
    split at he <;> split at he
    · omega
    · rw [if_pos (by omega)]; congr 1; omega
    · rw [if_neg (by omega), if_neg (by omega), if_pos (by omega)]; congr 1; omega
    · rw [if_neg (by omega), if_pos (by omega)]; congr 1; omega
  · intro he
    split at he
    · cases he; rw [if_pos (by omega), if_neg (by omega)]; omega
    · split at he
      · cases he; rw [if_neg (by omega), if_neg (by omega)]; omega
      · split at he
        · cases he; rw [if_neg (by omega), if_pos (by omega)]; omega
        · cases he

private theorem hex_iff : ∀ {s d : Str}, (∀ b ∈ d, b < 256) → (hexEncode d = asciiLower s ↔ hexBytes s = some d)
  | [], [], _ => by simp [hexEncode, asciiLower, hexBytes]
  | [], b :: d, _ => by simp [hexEncode, asciiLower, hexBytes]
  | [x], [], _ => by simp [hexEncode, asciiLower, hexBytes]
  | [x], b :: d, _ => by simp [hexEncode, asciiLower, hexBytes]
  | x :: y :: s, [], _ => by
    simp only [hexEncode, asciiLower, List.map_cons, hexBytes]
    constructor
    · intro h; cases h
    · intro h; split at h <;> cases h
  | x :: y :: s, b :: d, hb => by
    have h1 := hb b List.mem_cons_self
    have ih := hex_iff (s := s) (d := d) (fun b h => hb b (List.mem_cons_of_mem _ h))
    have e1 := hexDigit_lower (n := b / 16) (c := x) (by omega)
    have e2 := hexDigit_lower (n := b % 16) (c := y) (by omega)
    unfold asciiLower at ih
    simp only [hexEncode, asciiLower, List.map_cons, List.cons.injEq, e1, e2, ih, hexBytes]
    constructor
    · rintro ⟨h1, h2, h3⟩
      rw [h1, h2, h3]
      simp
      omega
    · intro h
      split at h
      · next u v r h2 h3 h4 =>
        simp only [Option.some.injEq, List.cons.injEq] at h
        obtain ⟨h, rfl⟩ := h
        have hv : ∀ {c n}, hexDigitVal c = some n → n < 16 := by
          intro c n h
          unfold hexDigitVal at h
          repeat' split at h
          all_goals first | (cases h; omega) | cases h
        have := hv h2
        have := hv h3
        exact ⟨by rw [h2]; congr 1; omega, by rw [h3]; congr 1; omega, h4⟩
      · cases h

private theorem hexBytes_length : ∀ {s d : Str}, hexBytes s = some d → s.length = 2 * d.length
  | [], d, h => by simp only [hexBytes, Option.some.injEq] at h; subst h; rfl
  | [_], _, h => by cases h
  | x :: y :: s, d, h => by
    rw [hexBytes] at h
    split at h
    · next h4 =>
      simp only [Option.some.injEq] at h
      subst h
      have := hexBytes_length h4
      simp only [List.length_cons]
      omega
    · cases h

/-- What the service stores for a fingerprint, and how it is compared. -/
private theorem pin_iff {lib : TlsLib} (hd : Digests lib) {r r' : NetRec} {typed : Str}
    (hf : flagCertFP (some typed) r = some r') (hp : r'.certFP ≠ []) {chain : List Str} (hc : chain ≠ []) :
    verifyPin lib r'.certFP chain = some (decide (∃ c ∈ chain, verifyPin lib r'.certFP [c] = some true)) ∧
    ∀ c, verifyPin lib r'.certFP [c] = some true ↔ FingerprintOf lib typed c := by
  simp only [flagCertFP] at hf
  have key : ∀ algo fp, (algo = b!"sha-256" ∨ algo = b!"sha-512") → r'.certFP = algo ++ 58 :: fp → 58 ∉ algo →
      verifyPin lib r'.certFP chain = some (decide (∃ c ∈ chain, verifyPin lib r'.certFP [c] = some true)) ∧
      ∀ c, verifyPin lib r'.certFP [c] = some true ↔ remoteFp lib algo c = fp := by
    intro algo fp ha he hn
    have hcut : cutStr b!":" r'.certFP = some (algo, fp) := by
      rw [he]; exact cutStr_byte 58 algo fp hn
    have h1 : ∀ c, verifyPin lib r'.certFP [c] = some true ↔ remoteFp lib algo c = fp := by
      intro c
      simp [verifyPin, hcut]
    refine ⟨?_, h1⟩
    simp only [h1]
    rw [verifyPin, if_neg hc, hcut]
    dsimp only
    congr 1
    rw [Bool.eq_iff_iff]
    simp
  generalize hst : typed.filter (fun c => decide (c ≠ 58)) = st at hf
  have hlen : (asciiLower st).length = st.length := by simp [asciiLower]
  split at hf
  · cases hf
  · split at hf
    · cases hf; exact absurd rfl hp
    · split at hf
      · next h64 =>
        cases hf
        obtain ⟨k1, k2⟩ := key b!"sha-256" (asciiLower st) (.inl rfl) rfl (by decide)
        refine ⟨k1, fun c => (k2 c).trans ?_⟩
        rw [remoteFp, if_neg (by decide), if_pos rfl, hex_iff (hd c).2.2.1, FingerprintOf, hst]
        constructor
        · exact .inl
        · rintro (h | h)
          · exact h
          · have := hexBytes_length h
            have := (hd c).2.1
            omega
      · split at hf
        · next h128 =>
          cases hf
          obtain ⟨k1, k2⟩ := key b!"sha-512" (asciiLower st) (.inr rfl) rfl (by decide)
          refine ⟨k1, fun c => (k2 c).trans ?_⟩
          rw [remoteFp, if_pos rfl, hex_iff (hd c).2.2.2, FingerprintOf, hst]
          constructor
          · exact .inr
          · rintro (h | h)
            · have := hexBytes_length h
              have := (hd c).1
              omega
            · exact h
        · cases hf

/-- A library for examples: the fingerprints of the certificate `[n]` consist of bytes `n`. -/
private def exTls : TlsLib where
  sha256 := fun c => List.replicate 32 (c.headD 0 % 256)
  sha512 := fun c => List.replicate 64 (c.headD 0 % 256)
  parseKey := fun _ => true
  verifyChain := fun chain host => decide (chain.head? = some host)

private theorem exTls_digests : Digests exTls := by
  intro c
  refine ⟨by simp [exTls], by simp [exTls], ?_, ?_⟩ <;>
  · intro b hb
    rw [List.eq_of_mem_replicate hb]
    exact Nat.mod_lt _ (by decide)

/-- A fingerprint with colons and in upper case. -/
private def exTyped : Str := (List.replicate 32 b!"AB:").flatten

/-- With a fingerprint, the certificates that make the bouncer accept a server are those of which the user has entered
the SHA-256 or SHA-512 fingerprint, however they have written it; another fingerprint never makes the comparison
crash. -/
theorem C78_fingerprint (lib : TlsLib) (hd : Digests lib) (r r' : NetRec) (typed : Str)
    (hf : flagCertFP (some typed) r = some r') (hp : r'.certFP ≠ []) (chain : List Str) :
    ∃ b, verifyPin lib r'.certFP chain = some b ∧ (b = true ↔ ∃ c ∈ chain, FingerprintOf lib typed c) := by
  by_cases hc : chain = []
  · subst hc
    exact ⟨false, rfl, by simp⟩
  · obtain ⟨h1, h2⟩ := pin_iff hd hf hp hc
    refine ⟨_, h1, ?_⟩
    rw [decide_eq_true_iff]
    constructor
    · rintro ⟨c, hm, h⟩; exact ⟨c, hm, (h2 c).mp h⟩
    · rintro ⟨c, hm, h⟩; exact ⟨c, hm, (h2 c).mpr h⟩

example : Digests exTls ∧ (flagCertFP (some exTyped) { addr := b!"irc.example.org" }).any (fun r' =>
    decide (r'.certFP = b!"sha-256:" ++ (List.replicate 32 b!"ab").flatten) &&
    decide (verifyPin exTls r'.certFP [[0xab]] = some true)) = true := ⟨exTls_digests, by decide +kernel⟩

/-- A server that presents a single certificate is accepted only if it holds the key of a certificate of which the user
has entered the fingerprint. Missing: servers that present several, see `C78_pin_violated`. -/
theorem C78_pin_partial (lib : TlsLib) (hd : Digests lib) (r r' : NetRec) (typed : Str) (conf : TlsConf)
    (peer : TlsPeer) (hf : flagCertFP (some typed) r = some r') (hp : r'.certFP ≠ []) (hc : conf.pin = some r'.certFP)
    (h : tlsAccepts lib conf peer = true) :
    (∃ c ∈ peer.chain, FingerprintOf lib typed c) ∧ (peer.chain.length = 1 → IsPinned lib typed peer) := by
  unfold tlsAccepts at h
  split at h
  · cases h
  · next leaf rest hch =>
    rw [hc, Bool.and_eq_true] at h
    dsimp only at h
    obtain ⟨b, h1, h2⟩ := C78_fingerprint lib hd r r' typed hf hp peer.chain
    rw [h1, Option.getD_some] at h
    obtain ⟨c, hm, hfc⟩ := h2.mp h.2
    refine ⟨⟨c, hm, hfc⟩, fun hl => ⟨c, hfc, ?_⟩⟩
    rw [hch] at hl hm
    cases rest with
    | nil => rw [List.mem_singleton.mp hm]; exact h.1
    | cons a l => simp at hl

example : tlsAccepts exTls ⟨b!"irc.example.org", none, some (b!"sha-256:" ++ (List.replicate 32 b!"ab").flatten)⟩
    ⟨[[0xab]], fun c => decide (c = [0xab])⟩ = true := by decide +kernel

/-- upstream.go:293-307: every certificate the server presents is compared with the fingerprint, not only the one whose
key it has to hold. Whoever is in between can present a certificate of their own followed by that of the server, which
is public, and is accepted. -/
theorem C78_pin_violated (lib : TlsLib) (hd : Digests lib) (typed cert own : Str) (r : NetRec)
    (hfp : hexBytes (typed.filter (fun c => decide (c ≠ 58))) = some (lib.sha256 cert))
    (hown : ∀ c, FingerprintOf lib typed c → c ≠ own) :
    (∃ r', flagCertFP (some typed) r = some r' ∧ r'.certFP ≠ [] ∧ ∀ name client,
      tlsAccepts lib ⟨name, client, some r'.certFP⟩ ⟨[own, cert], fun c => decide (c = own)⟩ = true) ∧
    ¬ PinEnforced lib := by
  have h1 : ∃ r', flagCertFP (some typed) r = some r' ∧ r'.certFP ≠ [] := by
    simp only [flagCertFP]
    generalize hst : typed.filter (fun c => decide (c ≠ 58)) = st at hfp ⊢
    have hlen := hexBytes_length hfp
    rw [(hd cert).1] at hlen
    have hhex : isHex (asciiLower st) = true := by
      rw [isHex, Bool.and_eq_true]
      refine ⟨by simp [asciiLower]; omega, ?_⟩
      have : ∀ {s d : Str}, hexBytes s = some d → (asciiLower s).all (fun c => (hexDigitVal c).isSome) = true := by
        intro s d
        fun_induction hexBytes s generalizing d with
        | case1 => intro _; rfl
        | case2 => intro h; cases h
        | case3 a b s x y r hr hy hx ih =>
          intro _
          simp only [asciiLower, List.map_cons, List.all_cons, Bool.and_eq_true]
          have low : ∀ {c n}, hexDigitVal c = some n →
              (hexDigitVal (if 65 ≤ c ∧ c ≤ 90 then c + 32 else c)).isSome = true := by
            intro c n h
            have hn : n < 16 := by
              unfold hexDigitVal at h
              repeat' split at h
              all_goals first | (cases h; omega) | cases h
            rw [← (hexDigit_lower hn).mpr h]
            unfold hexDigit hexDigitVal
            split
            · rw [if_pos (by omega)]; rfl
            · rw [if_neg (by omega), if_pos (by omega)]; rfl
          exact ⟨low hx, low hy, ih hr⟩
        | case4 => intro h; cases h
      exact this hfp
    have hl : (asciiLower st).length = 64 := by simp [asciiLower]; omega
    rw [hhex, hl]
    exact ⟨_, rfl, by simp⟩
  obtain ⟨r', hf, hp⟩ := h1
  have h2 : ∀ name client, tlsAccepts lib ⟨name, client, some r'.certFP⟩ ⟨[own, cert], fun c => decide (c = own)⟩ = true := by
    intro name client
    obtain ⟨b, h3, h4⟩ := C78_fingerprint lib hd r r' typed hf hp [own, cert]
    have hb : b = true := h4.mpr ⟨cert, by simp, .inl hfp⟩
    subst hb
    simp [tlsAccepts, h3]
  refine ⟨⟨r', hf, hp, h2⟩, fun hpe => ?_⟩
  obtain ⟨c, h3, h4⟩ := hpe r r' typed ⟨[], none, some r'.certFP⟩ _ hf hp rfl (h2 [] none)
  exact hown c h3 (of_decide_eq_true h4)

example : hexBytes (exTyped.filter (fun c => decide (c ≠ 58))) = some (exTls.sha256 [0xab]) ∧
    ∀ c, FingerprintOf exTls exTyped c → c ≠ [0xcd] := by
  refine ⟨by decide +kernel, ?_⟩
  rintro c h rfl
  revert h
  unfold FingerprintOf
  decide +kernel

/-! ## Which server, and how -/

/-- A network whose address is a host name or IPv4 address, alone or with a port, with or without `ircs://`: the bouncer
connects over TLS, to port 6697 if there is none, and asks for a certificate for exactly this host; the fingerprint, if
there is one, is used. -/
theorem C78_tls (ulib : UrlLib) (lib : TlsLib) (r : NetRec) (name : Str) (port : Option Str)
    (hn : name ≠ [] ∧ ∀ c ∈ name, HostChar c) (hp : ∀ p, port = some p → p ≠ [] ∧ ∀ c ∈ p, HostChar c)
    (host : Str) (hh : host = name ++ (port.map (58 :: ·)).getD []) (hl : ulib.parseHost host = some host)
    (ha : r.addr = host ∨ r.addr = b!"ircs://" ++ host) (hs : r.sasl.mechanism ≠ b!"EXTERNAL") :
    dialPlan ulib lib r = some (.tls (name ++ b!":" ++ port.getD b!"6697")
      ⟨name, none, if r.certFP = [] then none else some r.certFP⟩) := by
  have p : PlainHost host := by
    cases port with
    | none => exact .inl (by simpa [hh] using hn)
    | some q => exact .inr ⟨name, q, by simp [hh], hn.1, (hp q rfl).1, hn.2, (hp q rfl).2⟩
  obtain ⟨-, hc⟩ := plain_host_chars p
  have hu : netUrl ulib r.addr = some ⟨b!"ircs", false, host, [], [], []⟩ := by
    have e := parse_plain_host p hl b!"ircs" (.inl rfl)
    unfold netUrl
    dsimp only
    rcases ha with ha | ha
    · rw [ha, no_scheme (fun c hm => (hc c hm).2.2.1), Option.isNone_none, if_pos rfl]
      rw [show b!"ircs://" ++ host = b!"ircs" ++ b!"://" ++ host from rfl, e]
      rfl
    · have : (cutStr b!"://" (b!"ircs://" ++ host)).isNone = false := by simp [cutStr]
      rw [ha, this, if_neg (by simp)]
      rw [show b!"ircs://" ++ host = b!"ircs" ++ b!"://" ++ host from rfl, e]
      rfl
  unfold dialPlan
  rw [hu]
  dsimp only
  rw [if_pos rfl, clientCert, if_pos hs, withPort]
  dsimp only
  have hpin : (if r.certFP ≠ [] then some r.certFP else none) = if r.certFP = [] then none else some r.certFP := by
    by_cases h : r.certFP = [] <;> simp [h]
  rw [hpin]
  cases port with
  | none =>
    have h1 : splitHostPort host = none := by
      rcases split_plain_host p with h | ⟨n, q, -, h, -⟩
      · exact h.1
      · exfalso
        have : (58 : Nat) ∈ name := by
          have : host = name := by simpa using hh
          rw [← this, h]; simp
        exact (hn.2 58 this).2.2.2.2.2.2.1 rfl
    rw [h1]
    simp [hh]
  | some q =>
    have h1 : splitHostPort host = some (name, q) := by
      rcases split_plain_host p with ⟨-, h⟩ | ⟨n, q', h, h2, -⟩
      · exfalso
        exact (h 58 (by rw [hh]; simp)).2.2.2.2.2.2.1 rfl
      · have hq := (hp q rfl).2
        have e : name ++ 58 :: q = n ++ 58 :: q' := by rw [← h2, hh]; rfl
        have c1 : cutStr [58] (name ++ 58 :: q) = some (name, q) :=
          cutStr_byte 58 name q (fun hm => (hn.2 58 hm).2.2.2.2.2.2.1 rfl)
        rw [h]
        have hm : 58 ∉ n := by
          intro hm
          obtain ⟨x, y, hxy⟩ := List.append_of_mem hm
          have : cutStr [58] (name ++ 58 :: q) = cutStr [58] (n ++ 58 :: q') := by rw [e]
          have e2 : name ++ 58 :: q = x ++ 58 :: (y ++ 58 :: q') := by rw [e, hxy]; simp
          -- the second colon would be in the port
          rcases List.append_eq_append_iff.mp e2 with ⟨z, h3, h4⟩ | ⟨z, h3, h4⟩
          · cases z with
            | nil =>
              simp only [List.nil_append, List.cons.injEq, true_and] at h4
              exact (hq 58 (by rw [h4]; simp)).2.2.2.2.2.2.1 rfl
            | cons c z =>
              simp only [List.cons_append, List.cons.injEq] at h4
              exact (hq 58 (by rw [h4.2]; simp)).2.2.2.2.2.2.1 rfl
          · cases z with
            | nil =>
              simp only [List.nil_append, List.cons.injEq, true_and] at h4
              exact (hq 58 (by rw [← h4]; simp)).2.2.2.2.2.2.1 rfl
            | cons c z =>
              simp only [List.cons_append, List.cons.injEq] at h4
              exact (hn.2 58 (by rw [h3, ← h4.1]; simp)).2.2.2.2.2.2.1 rfl
        have c2 : cutStr [58] (n ++ 58 :: q') = some (n, q') := cutStr_byte 58 n q' hm
        rw [← e, c1] at c2
        exact c2.symm
    rw [h1]
    simp [hh]

example : dialPlan exUrlLib exTls { addr := b!"irc.libera.chat" } =
      some (.tls b!"irc.libera.chat:6697" ⟨b!"irc.libera.chat", none, none⟩) ∧
    dialPlan exUrlLib exTls { addr := b!"ircs://irc.libera.chat:7000", certFP := b!"sha-256:ab" } =
      some (.tls b!"irc.libera.chat:7000" ⟨b!"irc.libera.chat", none, some b!"sha-256:ab"⟩) := by decide +kernel

/-- TLS is left out only if the user has written so, in the address: it begins with `irc+insecure:`, in letters of
either case. -/
theorem C78_insecure (ulib : UrlLib) (lib : TlsLib) (st : NwState) (r : NetRec) (a : Str)
    (h : checkNetwork ulib st r = true) (hp : dialPlan ulib lib r = some (.plain a)) :
    ∃ scheme rest, r.addr = scheme ++ b!":" ++ rest ∧ asciiLower scheme = b!"irc+insecure" := by
  obtain ⟨u, hu, hc⟩ := netUrl_of_check h
  obtain ⟨v, hv, huv⟩ := netUrl_parse hu
  have hsc : u.scheme = b!"irc+insecure" := by
    unfold dialPlan at hp
    rw [hu] at hp
    dsimp only at hp
    split at hp
    · split at hp <;> cases hp
    · split at hp
      · assumption
      · split at hp <;> cases hp
  have hvs : v.scheme = u.scheme := by rw [huv]; split <;> rfl
  have huv' : u = v := by
    rw [huv, if_neg]
    rw [hvs, hsc]; decide
  subst huv'
  unfold checkUrl at hc
  split at hc
  · cases hc
  rename_i c1
  split at hc
  · cases hc
  rename_i c2
  split at hc
  · cases hc
  rename_i c3
  obtain ⟨sch, rest, tail, e1, e2, -⟩ :=
    (urlParse_parts hv (by rw [hsc]; decide) (by simpa using c2) (by simpa using c1) (by simpa using c3)).parts
  rw [hsc] at e2
  have hn : 58 ∉ sch := by
    intro hm
    have : (58 : Nat) ∈ asciiLower sch := List.mem_map.mpr ⟨58, hm, by decide⟩
    rw [e2] at this
    revert this
    decide
  refine ⟨sch, rest ++ tail, ?_, e2⟩
  unfold fullAddr at e1
  split at e1
  · rw [e1]; simp
  · exfalso
    have k1 : cutStr [58] (b!"ircs://" ++ r.addr) = some (b!"ircs", b!"//" ++ r.addr) :=
      cutStr_byte 58 b!"ircs" (b!"//" ++ r.addr) (by decide)
    have k2 : cutStr [58] (sch ++ 58 :: (rest ++ tail)) = some (sch, rest ++ tail) := cutStr_byte 58 _ _ hn
    rw [e1, show sch ++ 58 :: rest ++ tail = sch ++ 58 :: (rest ++ tail) by simp, k2] at k1
    simp only [Option.some.injEq, Prod.mk.injEq] at k1
    rw [k1.1] at e2
    revert e2
    decide

example : checkNetwork exUrlLib exNwUser { addr := b!"IRC+Insecure://irc.example.org" } = true ∧
    dialPlan exUrlLib exTls { addr := b!"IRC+Insecure://irc.example.org" } = some (.plain b!"irc.example.org:6667") := by
  decide +kernel

/-- Without a fingerprint, the server is accepted only with a chain of certificates that is valid for the host, and if it
holds the key of the first of them. -/
theorem C78_verified (ulib : UrlLib) (lib : TlsLib) (r : NetRec) (addr : Str) (conf : TlsConf) (peer : TlsPeer)
    (hf : r.certFP = []) (hp : dialPlan ulib lib r = some (.tls addr conf)) :
    tlsAccepts lib conf peer = true ↔
      lib.verifyChain peer.chain conf.serverName = true ∧ ∃ leaf, peer.chain.head? = some leaf ∧ peer.holds leaf = true := by
  have hpin : conf.pin = none := by
    unfold dialPlan at hp
    split at hp
    · cases hp
    · split at hp
      · dsimp only at hp
        split at hp
        · cases hp
        · rw [hf] at hp
          cases hp
          rfl
      · split at hp
        · cases hp
        · split at hp <;> cases hp
  unfold tlsAccepts
  rw [hpin]
  cases peer.chain with
  | nil => simp
  | cons a l => simp [and_comm]

example : dialPlan exUrlLib exTls { addr := b!"irc.example.org" } =
      some (.tls b!"irc.example.org:6697" ⟨b!"irc.example.org", none, none⟩) ∧
    tlsAccepts exTls ⟨b!"irc.example.org", none, none⟩ ⟨[b!"irc.example.org", b!"CA"], fun c => decide (c = b!"irc.example.org")⟩ = true ∧
    tlsAccepts exTls ⟨b!"irc.example.org", none, none⟩ ⟨[b!"irc.example.com", b!"CA"], fun _ => true⟩ = false := by
  decide +kernel

/-- The user's certificate is presented to a server over TLS if and only if the network is set to log in with it, and it
is the one of the network. Without one, or with a key that is damaged, there is no connection. -/
theorem C78_client (ulib : UrlLib) (lib : TlsLib) (r : NetRec) (addr : Str) (conf : TlsConf)
    (hp : dialPlan ulib lib r = some (.tls addr conf)) :
    if r.sasl.mechanism = b!"EXTERNAL" then
      conf.client = some (r.sasl.certBlob, r.sasl.privKeyBlob) ∧ r.sasl.certBlob ≠ [] ∧ r.sasl.privKeyBlob ≠ [] ∧
        lib.parseKey r.sasl.privKeyBlob = true
    else conf.client = none := by
  have hc : clientCert lib r = some conf.client := by
    unfold dialPlan at hp
    split at hp
    · cases hp
    · split at hp
      · dsimp only at hp
        split at hp
        · cases hp
        · next hc => cases hp; exact hc
      · split at hp
        · cases hp
        · split at hp <;> cases hp
  unfold clientCert at hc
  split at hc
  · next h =>
    rw [if_neg h]
    cases hc'  : conf.client with
    | none => rfl
    | some x => rw [hc'] at hc; cases hc
  · next h =>
    rw [if_pos (Decidable.not_not.mp h)]
    split at hc
    · cases hc
    · split at hc
      · cases hc
      · split at hc
        · next h1 h2 h3 =>
          simp only [Option.some.injEq] at hc
          exact ⟨hc.symm, h1, h2, h3⟩
        · cases hc

example : dialPlan exUrlLib exTls { addr := b!"irc.example.org", sasl := { mechanism := b!"EXTERNAL", certBlob := [1], privKeyBlob := [2] } } =
      some (.tls b!"irc.example.org:6697" ⟨b!"irc.example.org", some ([1], [2]), none⟩) ∧
    dialPlan exUrlLib exTls { addr := b!"irc.example.org", sasl := { mechanism := b!"EXTERNAL" } } = none := by decide +kernel

/-- With addresses for each user, the bouncer connects to an address of the server, an IPv6 one if there is one, from
the user's own address of the same kind. -/
theorem C78_source (ranges : List IpNet) (hr : ∀ n ∈ ranges, ∃ bits, Cidr n bits) (hne : ranges ≠ []) (userId : Nat)
    (hid : userId < 2 ^ 63) (lookup : Str → Option (List (List Byte))) (i : Nat) (join : List Byte → Str → Str)
    (addr dst : Str) (src : Option (List Byte)) (h : dialTCP ranges userId lookup i join addr = some (dst, src)) :
    ∃ host port l ip, splitHostPort addr = some (host, port) ∧ lookup host = some l ∧ ip ∈ l ∧ dst = join ip port ∧
      ((∃ x ∈ l, ipTo4 x = none) → ipTo4 ip = none) ∧
      (src = none → ∀ n ∈ ranges, ∀ bits, Cidr n bits → (n.ip.length = 4 ↔ ipTo4 ip = none)) ∧
      ∀ a, src = some a → ∃ n ∈ ranges, ∀ bits, Cidr n bits → InNet n bits a ∧ (a.length = 4 ↔ (ipTo4 ip).isSome) := by
  unfold dialTCP at h
  rw [if_neg hne] at h
  split at h
  · cases h
  · next host port hs =>
    split at h
    · cases h
    · next ip hl =>
      obtain ⟨l, hl1, hl2⟩ := Option.bind_eq_some_iff.mp hl
      have hmem : ip ∈ l ∧ ((∃ x ∈ l, ipTo4 x = none) → ipTo4 ip = none) := by
        unfold resolveIPAddr at hl2
        have := List.mem_of_getElem? hl2
        split at this
        · obtain ⟨h1, h2⟩ := List.mem_filter.mp this
          exact ⟨h1, fun _ => by simpa using h2⟩
        · next hz =>
          refine ⟨this, fun ⟨x, hx, hx2⟩ => ?_⟩
          exfalso
          apply hz
          exact List.length_pos_of_mem (List.mem_filter.mpr ⟨hx, by simp [hx2]⟩)
      refine ⟨host, port, l, ip, hs, hl1, hmem.1, ?_⟩
      split at h
      · next ha =>
        cases h
        refine ⟨rfl, hmem.2, fun _ n hn bits hc => ?_, nofun⟩
        unfold localTCPAddr at ha
        split at ha
        · next hf =>
          have := List.find?_eq_none.mp hf n hn
          rw [to4_cidr hc] at this
          by_cases h4 : n.ip.length = 4 <;> cases hi : ipTo4 ip <;> simp_all
        · dsimp only at ha
          split at ha <;> cases ha
      · cases h
      · next a ha =>
        cases h
        refine ⟨rfl, hmem.2, nofun, ?_⟩
        intro a' he
        cases he
        obtain ⟨n, hn, hk⟩ := C46_inside ranges hr ip userId hid a ha
        exact ⟨n, hn, fun bits hc => ⟨(hk bits hc).1, (hk bits hc).2.1⟩⟩

example : dialTCP [⟨[32, 1, 13, 184, 0, 0, 0, 0, 0, 0, 0, 0, 0, 0, 0, 0], cidrMask 64 16⟩] 5
    (fun _ => some [[192, 0, 2, 1], [32, 1, 13, 184, 0, 0, 0, 1, 0, 0, 0, 0, 0, 0, 0, 1]]) 3 (fun ip p => ip ++ p) b!"irc.example.org:6697" =
    some ([32, 1, 13, 184, 0, 0, 0, 1, 0, 0, 0, 0, 0, 0, 0, 1] ++ b!"6697", some [32, 1, 13, 184, 0, 0, 0, 0, 0, 0, 0, 0, 0, 0, 0, 6]) := by
  decide +kernel

end Verif.Props
