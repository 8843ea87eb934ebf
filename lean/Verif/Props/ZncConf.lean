import Verif.Proof.ZncConf
import Verif.Props.Dial

/-! # C89: ZNC configuration files are read as they are written -/

namespace Verif.Props
open Verif.Model Verif.Spec Verif.Proof

/-- C89: a well-formed file — its last line may be a comment that does not end — is read as what is written in it: all
settings with their values, all sections with their types and names, in this order, at every depth. -/
theorem C89_reads (items : List ZncItem) (text last : Str) (h : ZncWritten items text)
    (hl : last = [] ∨ ∃ line, 10 ∉ line ∧ last = b!"//" ++ line) :
    ∃ root, zncParse (text ++ last) = some root ∧ root.values = zncSettings items ∧
      root.children = zncSectionsOf items := by
  obtain ⟨m, hm, e⟩ := znc_reads h (last.length + 1) [] [] last
  refine ⟨.mk [] [] (zncSettings items) (zncSectionsOf items), ?_, rfl, rfl⟩
  unfold zncParse
  rw [show (text ++ last).length + 1 = last.length + 1 + text.length by simp; omega, e]
  simp only [List.nil_append]
  rcases hl with rfl | ⟨line, hn, rfl⟩
  · obtain ⟨m, rfl⟩ : ∃ k, m = k + 1 := ⟨m - 1, by omega⟩
    simp [zncBody, zncSkipSpace]
  · obtain ⟨m, rfl⟩ : ∃ k, m = k + 2 := ⟨m - 2, by simp at hm; omega⟩
    rw [show b!"//" ++ line = 47 :: 47 :: line from rfl, znc_body_comment, znc_skip_end _ hn]
    simp [zncBody, zncSkipSpace]

/-- A file with a user, a network and a channel. -/
def exZncFile : Str :=
  b!"// ZNC\nVersion = 1.8\n<User alice>\n\tNick = al\n\t<Network libera>\n\t\tServer = irc.libera.chat +6697 pw\n\t\t<Chan #soju>\n\t\t</Chan>\n\t</Network>\n</User>\n"

/-- What is written in it. -/
def exZncItems : List ZncItem :=
  [.value b!"Version" b!"1.8", .sect b!"User" b!"alice" [.value b!"Nick" b!"al",
    .sect b!"Network" b!"libera" [.value b!"Server" b!"irc.libera.chat +6697 pw", .sect b!"Chan" b!"#soju" []]]]

private theorem ex_written : ZncWritten exZncItems exZncFile := by
  have h1 : ZncWritten [] b!"\n\t\t" := .done _ (by unfold Blank; decide)
  have h2 : ZncWritten [] b!"\n\t" := .done _ (by unfold Blank; decide)
  have h3 : ZncWritten [] b!"\n" := .done _ (by unfold Blank; decide)
  have w1 := ZncWritten.sect b!"\t\t" b!"Chan" b!"#soju" (by unfold Blank; decide) (by decide) (by decide) (by decide) h1 h2
  have w2 := ZncWritten.value b!"\n\t\t" b!"Server " b!" irc.libera.chat +6697 pw" b!"Server" b!"irc.libera.chat +6697 pw"
    (by unfold Blank; decide) (by decide) (by decide) (by decide) (by decide) (by decide) (by simp; decide)
    (by have := trims_self b!"Server "; rwa [show trimSpaceRunes b!"Server " = b!"Server" by decide] at this)
    (by
      have := trims_self b!" irc.libera.chat +6697 pw"
      rwa [show trimSpaceRunes b!" irc.libera.chat +6697 pw" = b!"irc.libera.chat +6697 pw" by decide] at this) w1
  have w3 := ZncWritten.sect b!"\t" b!"Network" b!"libera" (by unfold Blank; decide) (by decide) (by decide) (by decide) w2 h3
  have w4 := ZncWritten.value b!"\n\t" b!"Nick " b!" al" b!"Nick" b!"al"
    (by unfold Blank; decide) (by decide) (by decide) (by decide) (by decide) (by decide) (by simp; decide)
    (by have := trims_self b!"Nick "; rwa [show trimSpaceRunes b!"Nick " = b!"Nick" by decide] at this)
    (by have := trims_self b!" al"; rwa [show trimSpaceRunes b!" al" = b!"al" by decide] at this) w3
  have w5 := ZncWritten.sect [] b!"User" b!"alice" (by unfold Blank; decide) (by decide) (by decide) (by decide) w4 h3
  have w6 := ZncWritten.value [] b!"Version " b!" 1.8" b!"Version" b!"1.8"
    (by unfold Blank; decide) (by decide) (by decide) (by decide) (by decide) (by decide) (by simp; decide)
    (by have := trims_self b!"Version "; rwa [show trimSpaceRunes b!"Version " = b!"Version" by decide] at this)
    (by have := trims_self b!" 1.8"; rwa [show trimSpaceRunes b!" 1.8" = b!"1.8" by decide] at this) w5
  have w7 := ZncWritten.comment [] b!" ZNC" (by unfold Blank; decide) (by decide) w6
  obtain ⟨t, ht, w⟩ : ∃ t, t = exZncFile ∧ ZncWritten exZncItems t := by
    refine ⟨_, ?_, w7⟩
    decide +kernel
  exact ht ▸ w

example : ∃ items text, ZncWritten items text ∧ text = exZncFile ∧ zncSectionsOf items =
    [.mk b!"User" b!"alice" [(b!"Nick", b!"al")] [.mk b!"Network" b!"libera" [(b!"Server", b!"irc.libera.chat +6697 pw")]
      [.mk b!"Chan" b!"#soju" [] []]]] :=
  ⟨exZncItems, _, ex_written, rfl, by simp [exZncItems, zncSectionsOf, zncSectionOf, zncSettings]⟩

/-- C89: what is read is what is written at the beginning of the file, so a malformed file is not read as something
else.  Missing: that this is the whole file, see `C89_rest_violated`; what follows begins with the end of a section
that was not begun, is a single character or a comment. -/
theorem C89_only_partial (text : Str) (root : ZncSection) (h : zncParse text = some root) :
    ∃ items written rest, ZncWritten items written ∧ text = written ++ rest ∧ root.values = zncSettings items ∧
      root.children = zncSectionsOf items ∧
      (rest = [] ∨ (∃ c, rest = [c]) ∨ b!"</" <+: rest ∨ ∃ line, 10 ∉ line ∧ rest = b!"//" ++ line) := by
  unfold zncParse at h
  obtain ⟨⟨vs, cs, r⟩, h1, rfl⟩ := Option.map_eq_some_iff.1 h
  obtain ⟨items, written, rest, w, e, hv, hc, hr⟩ := znc_sound _ _ _ _ _ _ _ h1
  refine ⟨items, written, rest, w, e, by simpa [ZncSection.values] using hv,
    by simpa [ZncSection.children] using hc, ?_⟩
  rcases hr with ⟨-, h2 | ⟨c, -, h2⟩ | h2⟩ | ⟨-, h2⟩
  · exact .inl h2
  · exact .inr (.inl ⟨c, h2⟩)
  · exact .inr (.inr (.inl h2))
  · exact .inr (.inr (.inr h2))

example : ((zncParse exZncFile).map (fun r => r.values)) = some [(b!"Version", b!"1.8")] ∧
    ((zncParse b!"Nick").isNone ∧ (zncParse b!"<User a>\nNick = a\n</Network>\n").isNone ∧
      (zncParse b!"<User>\n</User>\n").isNone ∧ (zncParse b!"Nick = a").isNone) := by decide +kernel

/-- C89 is violated for the end of a section that was not begun: the rest of the file, here a user, is silently
ignored. -/
theorem C89_rest_violated : ∃ (text : Str) (root : ZncSection),
    text = b!"A = 1\n</User>\n<User alice>\nNick = al\n</User>\n" ∧ zncParse text = some root ∧
    ¬ ∃ items, ZncWritten items text ∧ root.values = zncSettings items ∧ root.children = zncSectionsOf items := by
  have h : zncParse b!"A = 1\n</User>\n<User alice>\nNick = al\n</User>\n" = some (.mk [] [] [(b!"A", b!"1")] []) := by
    rfl
  refine ⟨_, _, rfl, h, ?_⟩
  rintro ⟨items, hw, -, -⟩
  obtain ⟨m, -, e⟩ := znc_reads hw 1 [] [] b!"XX\n"
  have h2 : zncBody m ([] ++ zncSettings items) ([] ++ zncSectionsOf items) b!"XX\n" = none := by
    cases m with
    | zero => rfl
    | succ m => rfl
  rw [h2] at e
  revert e
  exact nofun

/-! ## Looking things up -/

/-- C89: the value of a setting is the first one written for it, and empty if there is none. -/
theorem C89_get (values : List (Str × Str)) (key : Str) :
    ((∀ p ∈ values, p.1 ≠ key) → zncGet values key = []) ∧
    ∀ before val after, values = before ++ (key, val) :: after → (∀ p ∈ before, p.1 ≠ key) → zncGet values key = val := by
  have hno : ∀ l : List (Str × Str), (∀ p ∈ l, p.1 ≠ key) → l.filter (fun p => decide (p.1 = key)) = [] := by
    intro l hl
    rw [List.filter_eq_nil_iff]
    intro p hp
    simpa using hl p hp
  constructor
  · intro h
    unfold zncGet
    rw [hno _ h]
  · rintro before val after rfl hb
    unfold zncGet
    rw [List.filter_append, hno _ hb]
    simp

example : zncGet [(b!"Server", b!"a 1"), (b!"Nick", b!"n"), (b!"Server", b!"b 2")] b!"Server" = b!"a 1" := by decide

/-- C89: the sections of a type are those among the children that have this type, in the same order. -/
theorem C89_each (typ name : Str) (values : List (Str × Str)) (children : List ZncSection) (t : Str) :
    (zncEach (.mk typ name values children) t).Sublist children ∧
    ∀ c, c ∈ zncEach (.mk typ name values children) t ↔ c ∈ children ∧ c.typ = t := by
  unfold zncEach
  exact ⟨List.filter_sublist, fun c => by simp [List.mem_filter, ZncSection.children]⟩

/-! ## Servers -/

private theorem ff_blank {a s : Str} (h : Blank a) :
    fieldsFrom (fun c => !isSpaceRune c) [] (a ++ s) = fieldsFrom (fun c => !isSpaceRune c) [] s := by
  induction a with
  | nil => rfl
  | cons c a ih =>
    rw [List.cons_append, fieldsFrom, if_neg (by simp [h c (by simp)]), ih (fun x hx => h x (by simp [hx]))]
    rfl

private theorem ff_word {w s : Str} (hw : ∀ c ∈ w, isSpaceRune c = false)
    (hs : s = [] ∨ ∃ c t, s = c :: t ∧ isSpaceRune c = true) :
    ∀ cur : Str, cur ++ w ≠ [] → fieldsFrom (fun c => !isSpaceRune c) cur (w ++ s) =
      (cur ++ w) :: fieldsFrom (fun c => !isSpaceRune c) [] s := by
  induction w with
  | nil =>
    intro cur hc
    rw [List.append_nil] at hc ⊢
    rcases hs with rfl | ⟨c, t, rfl, h⟩
    · rw [List.append_nil, fieldsFrom, if_neg hc]; rfl
    · rw [List.nil_append, fieldsFrom, if_neg (by simp [h]), if_neg hc, fieldsFrom, if_neg (by simp [h]), if_pos rfl]
      simp
  | cons c w ih =>
    intro cur _
    rw [List.cons_append, fieldsFrom, if_pos (by simp [hw c (by simp)]), ih (fun x hx => hw x (by simp [hx])) _ (by simp)]
    simp

private theorem host_not_blank {c : Nat} (h : HostChar c) (h2 : c < 128) : isSpaceRune c = false := by
  unfold HostChar at h
  unfold isSpaceRune
  rw [decide_eq_false_iff_not]
  omega

/-- C89: of a server setting — a host, a port with or without a plus sign and possibly a password — the bouncer connects
to this host and port, over TLS just if there is a plus sign, and asks for a certificate for this host; the password is
kept.  (For host names and IPv4 addresses; missing: IPv6 addresses, see `C89_ipv6_violated`.) -/
theorem C89_server_partial (esc : Str → Str) (ulib : UrlLib) (lib : TlsLib) (r : NetRec) (a sp name port pass rest : Str)
    (tls : Bool)
    (hn : name ≠ [] ∧ ∀ c ∈ name, HostChar c ∧ c < 128) (hp : port ≠ [] ∧ ∀ c ∈ port, HostChar c ∧ c < 128)
    (h43 : 43 ∉ port) (ha : Blank a) (hsp : Blank sp ∧ sp ≠ [])
    (hpass : ∀ c ∈ pass, isSpaceRune c = false)
    (hrest : pass = [] ∧ Blank rest ∨ pass ≠ [] ∧ ∃ u v, Blank u ∧ u ≠ [] ∧ (v = [] ∨ ∃ c t, v = c :: t ∧ isSpaceRune c = true) ∧
      rest = u ++ pass ++ v)
    (hesc : esc (name ++ b!":" ++ port) = name ++ b!":" ++ port)
    (hl : ulib.parseHost (name ++ b!":" ++ port) = some (name ++ b!":" ++ port))
    (hs : r.sasl.mechanism ≠ b!"EXTERNAL") :
    ∃ addr, zncServer esc (a ++ name ++ sp ++ (if tls then b!"+" else []) ++ port ++ rest) = some (addr, pass) ∧
      dialPlan ulib lib { r with addr := addr } =
        if tls then some (.tls (name ++ b!":" ++ port) ⟨name, none, if r.certFP = [] then none else some r.certFP⟩)
        else some (.plain (name ++ b!":" ++ port)) := by
  have hnb : ∀ c ∈ name, isSpaceRune c = false := fun c hc => host_not_blank (hn.2 c hc).1 (hn.2 c hc).2
  have hrb : rest = [] ∨ ∃ c t, rest = c :: t ∧ isSpaceRune c = true := by
    rcases hrest with ⟨-, h⟩ | ⟨-, u, v, hu, hu0, -, rfl⟩
    · cases rest with
      | nil => exact .inl rfl
      | cons c t => exact .inr ⟨c, t, rfl, h c (by simp)⟩
    · cases u with
      | nil => exact absurd rfl hu0
      | cons c t => exact .inr ⟨c, _, rfl, hu c (by simp)⟩
  have hsb : ∀ x, sp ++ x = [] ∨ ∃ c t, sp ++ x = c :: t ∧ isSpaceRune c = true := by
    intro x
    obtain ⟨h, h0⟩ := hsp
    cases sp with
    | nil => exact absurd rfl h0
    | cons c t => exact .inr ⟨c, t ++ x, rfl, h c (by simp)⟩
  have hlast : (fieldsFrom (fun c => !isSpaceRune c) [] rest).headD [] = pass := by
    rcases hrest with ⟨rfl, h⟩ | ⟨h0, u, v, hu, -, hv, rfl⟩
    · have := ff_blank (s := []) h
      rw [List.append_nil] at this
      rw [this]; rfl
    · rw [List.append_assoc, ff_blank hu, ff_word hpass hv [] (by simpa using h0)]
      simp
  have hff : ∀ w : Str, w ≠ [] → (∀ c ∈ w, isSpaceRune c = false) →
      fieldsFrom (fun c => !isSpaceRune c) [] (a ++ name ++ sp ++ w ++ rest) =
        name :: w :: fieldsFrom (fun c => !isSpaceRune c) [] rest := by
    intro w hw0 hw
    simp only [List.append_assoc]
    rw [ff_blank ha, ff_word hnb (hsb _) [] (by simpa using hn.1), ff_blank hsp.1, ff_word hw hrb [] (by simpa using hw0)]
    simp
  have hp' : ∀ c ∈ port, isSpaceRune c = false := fun c hc => host_not_blank (hp.2 c hc).1 (hp.2 c hc).2
  have pl : PlainHost (name ++ b!":" ++ port) := .inr ⟨name, port, by simp, hn.1, hp.1,
    fun c hc => (hn.2 c hc).1, fun c hc => (hp.2 c hc).1⟩
  cases tls with
  | true =>
    refine ⟨b!"ircs://" ++ (name ++ b!":" ++ port), ?_, ?_⟩
    · have := hff (b!"+" ++ port) (by simp) (by
        intro c hc
        rcases List.mem_append.1 hc with hc | hc
        · rw [List.mem_singleton.1 hc]; decide
        · exact hp' c hc)
      unfold zncServer
      rw [if_pos rfl, show a ++ name ++ sp ++ b!"+" ++ port ++ rest = a ++ name ++ sp ++ (b!"+" ++ port) ++ rest by simp, this]
      dsimp only
      rw [if_pos (by simp [hasPrefix]), hlast]
      rw [show (b!"+" ++ port).drop 1 = port from rfl, hesc]
    · have := C78_tls ulib lib { r with addr := b!"ircs://" ++ (name ++ b!":" ++ port) } name (some port)
        ⟨hn.1, fun c hc => (hn.2 c hc).1⟩ (by
          intro p hpp
          cases hpp
          exact ⟨hp.1, fun c hc => (hp.2 c hc).1⟩) (name ++ b!":" ++ port) (by simp) hl (.inr rfl) hs
      rw [this, if_pos rfl]
      rfl
  | false =>
    refine ⟨b!"irc+insecure://" ++ (name ++ b!":" ++ port), ?_, ?_⟩
    · have := hff port hp.1 hp'
      unfold zncServer
      rw [if_neg (by simp), List.append_nil, this]
      dsimp only
      rw [if_neg, hlast, hesc]
      intro h
      rw [hasPrefix, List.isPrefixOf_iff_prefix] at h
      exact h43 (h.subset (by simp))
    · have e := parse_plain_host pl hl b!"irc+insecure" (.inr rfl)
      have hu : netUrl ulib (b!"irc+insecure://" ++ (name ++ b!":" ++ port)) =
          some ⟨b!"irc+insecure", false, name ++ b!":" ++ port, [], [], []⟩ := by
        unfold netUrl
        have : (cutStr b!"://" (b!"irc+insecure://" ++ (name ++ b!":" ++ port))).isNone = false := by simp [cutStr]
        dsimp only
        rw [this, if_neg (by simp), show b!"irc+insecure://" ++ (name ++ b!":" ++ port) =
          b!"irc+insecure" ++ b!"://" ++ (name ++ b!":" ++ port) from rfl, e]
        rfl
      unfold dialPlan
      rw [hu]
      dsimp only
      rw [if_neg (by decide), if_pos rfl, if_neg (by simp), withPort]
      rcases split_plain_host pl with ⟨-, h⟩ | ⟨n, q, h, -⟩
      · exact absurd rfl (h 58 (by simp)).2.2.2.2.2.2.1
      · rw [h]

example : zncServer id b!"irc.libera.chat  +6697 hunter2 x" = some (b!"ircs://irc.libera.chat:6697", b!"hunter2") ∧
    zncServer id b!"127.0.0.1 6667" = some (b!"irc+insecure://127.0.0.1:6667", []) ∧ zncServer id b!"localhost" = none ∧
    HostChar 109 := by
  refine ⟨by decide, by decide, by decide, by unfold HostChar; decide⟩

/-- C89 is violated for IPv6 addresses: they are written into the URL without brackets, so the bouncer later takes the
port for a part of the address. -/
theorem C89_ipv6_violated (lib : TlsLib) : zncServer id b!"2001:db8::1 +6697" = some (b!"ircs://2001:db8::1:6697", []) ∧
    dialPlan exUrlLib lib { addr := b!"ircs://2001:db8::1:6697" } =
      some (.tls b!"2001:db8::1:6697:6697" ⟨b!"2001:db8::1:6697", none, none⟩) := by
  refine ⟨by decide, ?_⟩
  have h : netUrl exUrlLib b!"ircs://2001:db8::1:6697" = some ⟨b!"ircs", false, b!"2001:db8::1:6697", [], [], []⟩ := by
    decide +kernel
  unfold dialPlan
  rw [h]
  rfl

end Verif.Props
