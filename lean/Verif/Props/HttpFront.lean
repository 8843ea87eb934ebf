import Verif.Model.HttpFront
import Verif.Proof.GlobMatch
import Verif.Proof.Url
import Verif.Props.Config
import Verif.Props.UserIp
import Verif.Props.Upload

/-! # The HTTP side: other sites, uploaded files, addresses behind proxies -/

namespace Verif.Props
open Verif.Model Verif.Spec Verif.Proof

/-! ## Specification -/

/-- The library adds no slash to a host. -/
def SlashlessHosts (lib : UrlLib) : Prop := ∀ s h, lib.parseHost s = some h → 47 ∉ s → 47 ∉ h

/-- A page of this origin may use the bouncer: it is served by the bouncer's own host (whatever the case), or the
administrator allowed its host. -/
def SiteAllowed (lib : UrlLib) (patterns : List Str) (host origin : Str) : Prop :=
  ∃ u, urlParse lib origin = some u ∧
    (asciiLower u.host = asciiLower host ∨ ∃ p ∈ patterns, ∃ toks, GlobSyntax p toks ∧ GlobMatch toks u.host)

/-- Types of content that a browser may run scripts from. -/
def scriptTypes : List Str := [
  b!"text/html", b!"application/xhtml+xml", b!"image/svg+xml", b!"text/xml", b!"application/xml", b!"text/javascript",
  b!"application/javascript", b!"application/ecmascript", b!"text/ecmascript", b!"application/x-javascript", b!"text/css",
  b!"application/xslt+xml", b!"multipart/x-mixed-replace", b!"application/json", b!"application/wasm"]

/-! ## Other sites -/

private theorem noFrag_host {lib : UrlLib} (hl : SlashlessHosts lib) {s : Str} {u : Url} (h : urlParseNoFrag lib s = some u) :
    47 ∉ u.host := by
  unfold urlParseNoFrag at h
  split at h
  · cases h
  · split at h
    · cases h; simp
    · split at h
      · cases h
      · dsimp only at h
        split at h
        · cases h; simp
        · split at h
          · cases h
          · split at h
            · split at h
              · rename_i user host p hp hd
                cases h
                dsimp only
                generalize hr : List.drop 2 _ = r at hp
                have hno := takeWhile_not_mem 47 r
                generalize r.takeWhile (fun c => decide (c ≠ 47)) = a at hp hno
                unfold parseAuthority at hp
                split at hp
                · cases hx : lib.parseHost a with
                  | none => rw [hx] at hp; cases hp
                  | some y =>
                    rw [hx] at hp
                    simp only [Option.map_some, Option.some.injEq, Prod.mk.injEq] at hp
                    obtain ⟨-, rfl⟩ := hp
                    exact hl _ _ hx hno
                · rename_i x y hc
                  obtain ⟨h1, -⟩ := cutLast_some hc
                  split at hp
                  · cases hp
                  · rename_i z hz
                    split at hp
                    · simp only [Option.some.injEq, Prod.mk.injEq] at hp
                      obtain ⟨-, rfl⟩ := hp
                      exact hl _ _ hz (fun hm => hno (by rw [h1]; simp [hm]))
                    · cases hp
              · cases h
            · simp only [Option.map_eq_some_iff] at h
              obtain ⟨p, -, rfl⟩ := h
              simp

private theorem parse_host {lib : UrlLib} (hl : SlashlessHosts lib) {s : Str} {u : Url} (h : urlParse lib s = some u) :
    47 ∉ u.host := by
  unfold urlParse at h
  split at h
  · exact noFrag_host hl h
  · split at h
    · rename_i v f hv hf
      simp only [Option.some.injEq] at h
      subst h
      exact noFrag_host hl (u := v) hv
    · cases h

/-- What the check of the origin is. -/
theorem cors_iff {lib : HttpLib} {patterns : List Str} (hl : SlashlessHosts lib.url)
    (hp : ∀ p ∈ patterns, ∃ toks, GlobSyntax p toks) (host origin : Str) :
    (origin = [] ∧ setCors lib patterns host origin = .allowed none) ∨
    (origin ≠ [] ∧ SiteAllowed lib.url patterns host origin ∧ setCors lib patterns host origin = .allowed (some origin)) ∨
    (origin ≠ [] ∧ ¬ SiteAllowed lib.url patterns host origin ∧ setCors lib patterns host origin = .refused) := by
  unfold setCors
  by_cases h0 : origin = []
  · exact .inl ⟨h0, if_pos h0⟩
  · right
    rw [if_neg h0]
    cases hu : urlParse lib.url origin with
    | none =>
      right
      exact ⟨h0, (fun ⟨u, h, _⟩ => by rw [hu] at h; cases h), rfl⟩
    | some u =>
      dsimp only
      by_cases hh : asciiLower u.host = asciiLower host
      · left
        exact ⟨h0, ⟨u, hu, .inl hh⟩, if_pos hh⟩
      · rw [if_neg hh]
        have hall : ∀ p ∈ patterns, pathMatch p u.host ≠ none := fun p h => (pathMatch_valid p u.host).2 (hp p h)
        rw [checkOrigin_some hall]
        have key : (∃ p ∈ patterns, pathMatch p u.host = some true) ↔
            ∃ p ∈ patterns, ∃ toks, GlobSyntax p toks ∧ GlobMatch toks u.host := by
          constructor
          · rintro ⟨p, h1, h2⟩
            exact ⟨p, h1, pathMatch_sound _ _ _ (Nat.le_refl _) h2⟩
          · rintro ⟨p, h1, toks, h2, h3⟩
            exact ⟨p, h1, pathMatch_complete _ _ _ toks (Nat.le_refl _) (.inr (parse_host hl hu)) h2 h3⟩
        by_cases hm : ∃ p ∈ patterns, pathMatch p u.host = some true
        · left
          refine ⟨h0, ⟨u, hu, .inr (key.1 hm)⟩, ?_⟩
          simp only [hm, decide_true]
        · right
          refine ⟨h0, ?_, ?_⟩
          · rintro ⟨v, hv, h⟩
            rw [hu] at hv
            cases hv
            rcases h with h | h
            · exact hh h
            · exact hm (key.2 h)
          · simp only [hm, decide_false]

private theorem bare_allow (n : Nat) (a : Option Str) : (bareResp n a).allowOrigin = a := rfl

private theorem fetch_allow (lib : HttpLib) (cwd : List Str) (root : Str) (fs : UpFs) (allow : Option Str) (path : Str) :
    (fetch lib cwd root fs allow path).allowOrigin = allow := by
  unfold fetch
  split
  · rfl
  · split <;> rfl

private theorem upload_allow (lib : HttpLib) (auth : UpAuth) (allow : Option Str) (r : HttpReq) (s : UpStatus) :
    (uploadResp lib auth allow r s).allowOrigin = allow := by
  unfold uploadResp
  repeat' split
  all_goals rfl

/-- C71: a request of a page whose site is not allowed is refused: it has no effect, gets no content, and the browser
is not told that the page may read the answer. -/
theorem C71_refused (lib : HttpLib) (auth : UpAuth) (patterns : List Str) (enabled : Bool) (cwd : List Str) (root : Str)
    (fs : UpFs) (tok : Nat → Nat → Str) (r : HttpReq) (hl : SlashlessHosts lib.url)
    (hp : ∀ p ∈ patterns, ∃ toks, GlobSyntax p toks) (ho : r.origin ≠ [])
    (hn : ¬ SiteAllowed lib.url patterns r.host r.origin) :
    ∃ resp, serveUpload lib auth patterns enabled cwd root fs tok r = some (fs, resp) ∧ resp.status = 403 ∧
      resp.allowOrigin = none ∧ resp.content = none ∧ resp.location = none := by
  rcases cors_iff hl hp r.host r.origin with ⟨h, -⟩ | ⟨-, h, -⟩ | ⟨-, -, h⟩
  · exact absurd h ho
  · exact absurd h hn
  · refine ⟨bareResp 403 none, ?_, rfl, rfl, rfl, rfl⟩
    unfold serveUpload
    rw [h]

/-- C71: the pages of the sites that are allowed may read the answers, and no other page may: an answer names the origin
of the request if its site is allowed, and nothing otherwise. The handler never panics. -/
theorem C71_allowed (lib : HttpLib) (auth : UpAuth) (patterns : List Str) (enabled : Bool) (cwd : List Str) (root : Str)
    (fs : UpFs) (tok : Nat → Nat → Str) (r : HttpReq) (hl : SlashlessHosts lib.url)
    (hp : ∀ p ∈ patterns, ∃ toks, GlobSyntax p toks) :
    ∃ fs' resp, serveUpload lib auth patterns enabled cwd root fs tok r = some (fs', resp) ∧
      ∀ o, resp.allowOrigin = some o ↔ (o = r.origin ∧ r.origin ≠ [] ∧ SiteAllowed lib.url patterns r.host r.origin) := by
  unfold serveUpload
  rcases cors_iff hl hp r.host r.origin with ⟨h0, h⟩ | ⟨h0, h1, h⟩ | ⟨h0, h1, h⟩
  · rw [h]
    dsimp only
    have fin : ∀ (resp : HttpResp), resp.allowOrigin = none →
        ∀ o, resp.allowOrigin = some o ↔ (o = r.origin ∧ r.origin ≠ [] ∧ SiteAllowed lib.url patterns r.host r.origin) := by
      intro resp hr o
      rw [hr]
      exact ⟨(fun e => nomatch e), fun e => absurd h0 e.2.1⟩
    repeat' split
    all_goals refine ⟨_, _, rfl, fin _ ?_⟩
    all_goals first | rfl | exact fetch_allow .. | exact upload_allow ..
  · rw [h]
    dsimp only
    have fin : ∀ (resp : HttpResp), resp.allowOrigin = some r.origin →
        ∀ o, resp.allowOrigin = some o ↔ (o = r.origin ∧ r.origin ≠ [] ∧ SiteAllowed lib.url patterns r.host r.origin) := by
      intro resp hr o
      rw [hr]
      exact ⟨fun e => ⟨(Option.some.inj e).symm, h0, h1⟩, fun e => by rw [e.1]⟩
    repeat' split
    all_goals refine ⟨_, _, rfl, fin _ ?_⟩
    all_goals first | rfl | exact fetch_allow .. | exact upload_allow ..
  · rw [h]
    dsimp only
    exact ⟨_, _, rfl, fun o => ⟨(fun e => nomatch e), fun e => absurd e.2.2 h1⟩⟩

/-! ## What browsers do with uploaded files -/

private theorem fetch_csp (lib : HttpLib) (cwd : List Str) (root : Str) (fs : UpFs) (allow : Option Str) (path : Str) :
    (fetch lib cwd root fs allow path).csp = uploadCsp := by
  unfold fetch
  split
  · rfl
  · split <;> rfl

private theorem upload_csp (lib : HttpLib) (auth : UpAuth) (allow : Option Str) (r : HttpReq) (s : UpStatus) :
    (uploadResp lib auth allow r s).csp = uploadCsp ∧ (uploadResp lib auth allow r s).content = none := by
  unfold uploadResp
  repeat' split
  all_goals exact ⟨rfl, rfl⟩

private theorem inline_safe : ∀ t ∈ inlineMimeTypes, t ∉ scriptTypes := by decide +kernel

/-- C73: every answer forbids scripts, and the content of a file whose type may contain scripts is never shown in the
browser but offered for saving. -/
theorem C73_no_scripts (lib : HttpLib) (auth : UpAuth) (patterns : List Str) (enabled : Bool) (cwd : List Str) (root : Str)
    (fs fs' : UpFs) (tok : Nat → Nat → Str) (r : HttpReq) (resp : HttpResp)
    (h : serveUpload lib auth patterns enabled cwd root fs tok r = some (fs', resp)) :
    resp.csp = b!"sandbox; default-src 'none'; script-src 'none'; media-src 'self';" ∧
    ∀ c, resp.content = some c → ∃ inline name, resp.disposition = some (inline, name) ∧
      (lib.mediaType resp.contentType ∈ scriptTypes → inline = false) ∧
      (inline = true ↔ lib.mediaType resp.contentType ∈ inlineMimeTypes) := by
  have bare : ∀ n a, (bareResp n a).csp = uploadCsp ∧ (bareResp n a).content = none := fun n a => ⟨rfl, rfl⟩
  have fin : resp.csp = uploadCsp ∧ resp.content = none → resp.csp = uploadCsp ∧
      ∀ c, resp.content = some c → ∃ inline name, resp.disposition = some (inline, name) ∧
      (lib.mediaType resp.contentType ∈ scriptTypes → inline = false) ∧
      (inline = true ↔ lib.mediaType resp.contentType ∈ inlineMimeTypes) := by
    rintro ⟨h1, h2⟩
    exact ⟨h1, fun c hc => by rw [h2] at hc; cases hc⟩
  show resp.csp = uploadCsp ∧ _
  unfold serveUpload at h
  split at h
  · cases h
  · cases h; exact fin (bare _ _)
  · split at h
    · cases h; exact fin (bare _ _)
    · split at h
      · cases h; exact fin (bare _ _)
      · split at h
        · cases h
          refine ⟨fetch_csp .., ?_⟩
          intro c hc
          unfold fetch at hc ⊢
          split at hc
          · cases hc
          · rename_i name hname
            dsimp only at hc ⊢
            split at hc
            · cases hc
            · rename_i content hcontent
              refine ⟨_, _, rfl, ?_, by simp⟩
              intro hm
              refine decide_eq_false ?_
              exact fun hi => inline_safe _ hi hm
        · split at h
          · cases h; exact fin (upload_csp ..)
          · cases h; exact fin (bare _ _)

/-! ## Getting a file back -/

private theorem upperHex_val (n : Nat) (h : n < 16) : hexDigitVal (upperHex n) = some n := by
  revert h
  revert n
  decide +kernel

private theorem pct_keep {c : Byte} (hc : c ≠ 37) (s : Str) : pctDecode (c :: s) = (pctDecode s).map (c :: ·) := by
  rw [pctDecode.eq_def]
  split
  · rename_i h; cases h
  · rename_i h
    simp only [List.cons.injEq] at h
    exact absurd h.1 hc
  · rename_i d t _ h
    simp only [List.cons.injEq] at h
    obtain ⟨rfl, rfl⟩ := h
    rw [if_neg hc]

private theorem keep_ne37 {c : Byte} (h : keepInSegment c = true) : c ≠ 37 := by
  rintro rfl
  revert h
  decide

private theorem pct_escape (s t : Str) (hs : ∀ c ∈ s, c < 256) :
    pctDecode (pathEscape s ++ t) = (pctDecode t).map (s ++ ·) := by
  unfold pathEscape
  induction s with
  | nil => simp
  | cons c s ih =>
    have ih' := ih (fun d hd => hs d (by simp [hd]))
    have hc := hs c (by simp)
    rw [List.flatMap_cons, List.append_assoc]
    split
    · rename_i hk
      rw [List.singleton_append, pct_keep (keep_ne37 hk), ih']
      cases pctDecode t <;> rfl
    · rw [List.cons_append, List.cons_append, List.singleton_append, pctDecode, upperHex_val _ (by omega),
        upperHex_val _ (by omega), ih']
      have : c / 16 * 16 + c % 16 = c := by omega
      cases pctDecode t <;> simp [this]

private theorem mem_escape {s : Str} {c : Byte} (h : c ∈ pathEscape s) (hs : ∀ c ∈ s, c < 256) :
    (c ∈ s ∧ keepInSegment c = true) ∨ c = 37 ∨ (48 ≤ c ∧ c ≤ 57) ∨ (65 ≤ c ∧ c ≤ 70) := by
  unfold pathEscape at h
  rw [List.mem_flatMap] at h
  obtain ⟨d, hd, h⟩ := h
  have hd' := hs d hd
  split at h
  · rename_i hk
    simp only [List.mem_singleton] at h
    subst h
    exact .inl ⟨hd, hk⟩
  · right
    simp only [List.mem_cons, List.not_mem_nil, or_false] at h
    rcases h with rfl | rfl | rfl
    · exact .inl rfl
    · right; unfold upperHex; split <;> omega
    · right; unfold upperHex; split <;> omega

private theorem escape_plainChar {s : Str} {c : Byte} (h : c ∈ pathEscape s) (hs : ∀ c ∈ s, c < 256) :
    c ≠ 47 ∧ c ≠ 35 ∧ c ≠ 63 ∧ ¬ c < 32 ∧ c ≠ 127 ∧ c ≠ 42 := by
  rcases mem_escape h hs with ⟨-, hk⟩ | h | h | h
  · have hlt : ∀ d, d < 128 → keepInSegment d = true → d ≠ 47 ∧ d ≠ 35 ∧ d ≠ 63 ∧ ¬ d < 32 ∧ d ≠ 127 ∧ d ≠ 42 := by
      decide +kernel
    by_cases hc : c < 128
    · exact hlt c hc hk
    · omega
  all_goals omega

private theorem scheme_none {raw : Str} : ∀ (a b pre : Str), 58 ∉ a → getSchemeLoop raw pre (a ++ 47 :: b) = some ([], raw) := by
  intro a
  induction a with
  | nil =>
    intro b pre _
    rw [List.nil_append, getSchemeLoop, if_neg (by decide), if_neg (by decide), if_neg (by decide)]
  | cons c a ih =>
    intro b pre h
    rw [List.cons_append, getSchemeLoop]
    have h' : 58 ∉ a := fun e => h (by simp [e])
    split
    · exact ih b _ h'
    · split
      · split
        · rfl
        · exact ih b _ h'
      · rw [if_neg (fun e => h (by simp [e]))]

private theorem escape_ne {s : Str} (h : s ≠ []) : pathEscape s ≠ [] := by
  cases s with
  | nil => exact absurd rfl h
  | cons c s =>
    unfold pathEscape
    rw [List.flatMap_cons]
    split <;> simp

private theorem location_eq (lib : UrlLib) {u name : Str} (hu : PlainName u) (hcol : 58 ∉ u)
    (hub : ∀ c ∈ u, c < 256) (hnb : ∀ c ∈ name, c < 256) :
    uploadLocation lib u name = some (b!"/uploads/" ++ (pathEscape u ++ b!"/" ++ pathEscape name)) := by
  have hout : ∀ c ∈ pathEscape u ++ b!"/" ++ pathEscape name, c ≠ 35 ∧ c ≠ 63 ∧ ¬ c < 32 ∧ c ≠ 127 := by
    intro c hc
    simp only [List.mem_append, List.mem_singleton] at hc
    rcases hc with (hc | hc) | hc
    · have := escape_plainChar hc hub; exact ⟨this.2.1, this.2.2.1, this.2.2.2.1, this.2.2.2.2.1⟩
    · subst hc; decide
    · have := escape_plainChar hc hnb; exact ⟨this.2.1, this.2.2.1, this.2.2.2.1, this.2.2.2.2.1⟩
  have h58 : 58 ∉ pathEscape u := by
    intro hm
    rcases mem_escape hm hub with ⟨h, -⟩ | h | h | h
    · exact hcol h
    all_goals omega
  have hsch : getScheme (pathEscape u ++ b!"/" ++ pathEscape name) = some ([], pathEscape u ++ b!"/" ++ pathEscape name) := by
    have := scheme_none (raw := pathEscape u ++ b!"/" ++ pathEscape name) (pathEscape u) (pathEscape name) [] h58
    unfold getScheme
    rw [List.append_assoc] at this ⊢
    exact this
  have hdec : pctDecode (pathEscape u ++ b!"/" ++ pathEscape name) = some (u ++ b!"/" ++ name) := by
    rw [List.append_assoc, pct_escape u _ hub, List.singleton_append, pct_keep (by decide)]
    have := pct_escape name [] hnb
    rw [List.append_nil] at this
    rw [this]
    simp [pctDecode]
  have hne := escape_ne hu.1
  have h47 : hasPrefix b!"/" (pathEscape u ++ b!"/" ++ pathEscape name) = false := by
    cases he : pathEscape u with
    | nil => exact absurd he hne
    | cons c t =>
      have := (escape_plainChar (c := c) (by rw [he]; simp) hub).1
      simp only [hasPrefix, List.cons_append, List.isPrefixOf_cons_cons, List.isPrefixOf_nil_left, Bool.and_true, beq_eq_false_iff_ne]
      exact fun e => this e.symm
  have h47' : hasPrefix b!"//" (pathEscape u ++ b!"/" ++ pathEscape name) = false := by
    cases he : pathEscape u with
    | nil => exact absurd he hne
    | cons c t =>
      have := (escape_plainChar (c := c) (by rw [he]; simp) hub).1
      simp only [hasPrefix, List.cons_append, List.isPrefixOf_cons_cons]
      have h2 : (47 == c) = false := by simpa using fun e : 47 = c => this e.symm
      rw [h2]; rfl
  have htw : 58 ∉ (pathEscape u ++ b!"/" ++ pathEscape name).takeWhile (fun c => decide (c ≠ 47)) := by
    have : (pathEscape u ++ b!"/" ++ pathEscape name).takeWhile (fun c => decide (c ≠ 47)) = pathEscape u := by
      rw [List.append_assoc, List.takeWhile_append_of_pos (by
        intro c hc
        simpa using (escape_plainChar hc hub).1)]
      simp
    rw [this]
    exact h58
  have hq : cutQuery (pathEscape u ++ b!"/" ++ pathEscape name) = (pathEscape u ++ b!"/" ++ pathEscape name, []) := by
    unfold cutQuery
    cases hc : cutStr b!"?" (pathEscape u ++ b!"/" ++ pathEscape name) with
    | none => rfl
    | some ab =>
      obtain ⟨a, b⟩ := ab
      have := (cutStr_byte_some hc).1
      exact absurd rfl (hout 63 (by rw [this]; simp)).2.1
  have hparse : urlParse lib (pathEscape u ++ b!"/" ++ pathEscape name) =
      some ⟨[], false, [], u ++ b!"/" ++ name, [], []⟩ := by
    unfold urlParse
    cases hc : cutStr b!"#" (pathEscape u ++ b!"/" ++ pathEscape name) with
    | some ab =>
      obtain ⟨a, b⟩ := ab
      have := (cutStr_byte_some hc).1
      exact absurd rfl (hout 35 (by rw [this]; simp)).1
    | none =>
      dsimp only
      unfold urlParseNoFrag
      rw [if_neg (by
        intro h
        rw [List.any_eq_true] at h
        obtain ⟨c, hc, h⟩ := h
        have := hout c hc
        simp only [decide_eq_true_eq] at h
        rcases h with h | h
        · exact this.2.2.1 h
        · exact this.2.2.2 h), if_neg (by
        intro h
        have : (47 : Nat) ∈ b!"*" := by rw [← h]; simp
        revert this
        decide), hsch]
      dsimp only
      rw [hq]
      dsimp only
      rw [if_neg (fun h => h.2 rfl), if_neg (fun h => htw h.2), if_neg (fun h => by rw [h47'] at h; exact nomatch h.2), hdec]
      rfl
  unfold uploadLocation
  dsimp only
  rw [hparse, hsch]
  dsimp only
  rw [if_neg (fun h => h rfl)]

/-- The location of a file leads back to it. -/
private theorem location_decodes (lib : UrlLib) {u name : Str} (hu : PlainName u) (hcol : 58 ∉ u)
    (hub : ∀ c ∈ u, c < 256) (hnb : ∀ c ∈ name, c < 256) :
    ∃ l, uploadLocation lib u name = some l ∧ pctDecode l = some (b!"/uploads/" ++ u ++ b!"/" ++ name) := by
  refine ⟨_, location_eq lib hu hcol hub hnb, ?_⟩
  have h1 : pctDecode (pathEscape u ++ b!"/" ++ pathEscape name) = some (u ++ b!"/" ++ name) := by
    rw [List.append_assoc, pct_escape u _ hub, List.singleton_append, pct_keep (by decide)]
    have := pct_escape name [] hnb
    rw [List.append_nil] at this
    rw [this]
    simp [pctDecode]
  generalize pathEscape u ++ b!"/" ++ pathEscape name = x at h1
  have h2 : ∀ (p x y : Str), 37 ∉ p → pctDecode x = some y → pctDecode (p ++ x) = some (p ++ y) := by
    intro p x y hp hx
    induction p with
    | nil => exact hx
    | cons c p ih =>
      rw [List.cons_append, pct_keep (fun e => hp (by simp [e])), ih (fun e => hp (by simp [e]))]
      rfl
  rw [h2 b!"/uploads/" x _ (by decide) h1]
  simp

/-- A later request, with the random tokens drawn for it. -/
structure HttpStep where
  req : HttpReq
  tok : Nat → Nat → Str

/-- The files after requests. -/
def httpRun (lib : HttpLib) (auth : UpAuth) (patterns : List Str) (enabled : Bool) (cwd : List Str) (root : Str)
    (fs : UpFs) : List HttpStep → UpFs
  | [] => fs
  | s :: rest =>
    httpRun lib auth patterns enabled cwd root
      (((serveUpload lib auth patterns enabled cwd root fs s.tok s.req).map (·.1)).getD fs) rest

private theorem serve_keeps {lib : HttpLib} {auth : UpAuth} {patterns : List Str} {enabled : Bool} {cwd : List Str} {root : Str}
    {fs : UpFs} {tok : Nat → Nat → Str} {r : HttpReq} (hl : PlainExts lib.up) (htok : HexTokens tok)
    (hu : ∀ u, UpAccepted lib.up auth r.authorization u → PlainName u) (hflat : FlatDirs cwd root fs) :
    let fs' := (((serveUpload lib auth patterns enabled cwd root fs tok r).map (·.1)).getD fs)
    FlatDirs cwd root fs' ∧ ∀ p c, GoMap.get fs.files p = some c → GoMap.get fs'.files p = some c := by
  dsimp only
  unfold serveUpload
  repeat' split
  all_goals first
    | exact ⟨hflat, fun p c h => h⟩
    | skip
  simp only [Option.map_some, Option.getD_some]
  have hh := upHandle_effect (auth := auth) (req := r.upload) hl htok hu hflat
  refine ⟨hh.1, ?_⟩
  intro p c hg
  rcases hh.2 with ⟨he, -⟩ | ⟨u, name, -, -, -, -, -, g5, -, g6, -⟩
  · rw [he]; exact hg
  · rw [g6, mget_mset]
    split
    · rename_i hp
      subst hp
      rw [g5] at hg
      cases hg
    · exact hg

private theorem run_keeps {lib : HttpLib} {auth : UpAuth} {patterns : List Str} {enabled : Bool} {cwd : List Str} {root : Str}
    (hl : PlainExts lib.up) : ∀ (steps : List HttpStep) (fs : UpFs), (∀ s ∈ steps, HexTokens s.tok) →
    (∀ s ∈ steps, ∀ u, UpAccepted lib.up auth s.req.authorization u → PlainName u) → FlatDirs cwd root fs →
    ∀ p c, GoMap.get fs.files p = some c →
      GoMap.get (httpRun lib auth patterns enabled cwd root fs steps).files p = some c := by
  intro steps
  induction steps with
  | nil => intro fs _ _ _ p c h; exact h
  | cons s steps ih =>
    intro fs ht hu hflat p c h
    have hk := serve_keeps (patterns := patterns) (enabled := enabled) (r := s.req) hl (ht s (by simp)) (hu s (by simp)) hflat
    exact ih _ (fun x hx => ht x (by simp [hx])) (fun x hx => hu x (by simp [hx])) hk.1 p c (hk.2 p c h)

/-- The name a file is shown under. -/
private theorem shown_name {tok : Nat → Nat → Str} (htok : HexTokens tok) {u orig suffix : Str} {i : Nat}
    (hn : PlainName (upName tok orig suffix i)) (ho : orig ≠ []) :
    shownName (u ++ b!"/" ++ upName tok orig suffix i) = orig ++ suffix := by
  have hbase : ∀ (a n : Str), n ≠ [] → 47 ∉ n → pathBase (a ++ b!"/" ++ n) = n := by
    intro a n h1 h2
    unfold pathBase
    rw [if_neg (by simp)]
    have hr : (a ++ b!"/" ++ n).reverse = n.reverse ++ 47 :: a.reverse := by simp
    have hd : (n.reverse ++ 47 :: a.reverse).dropWhile (fun c => decide (c = 47)) = n.reverse ++ 47 :: a.reverse := by
      cases hx : n.reverse with
      | nil => simp at hx; exact absurd hx h1
      | cons c t =>
        have : c ≠ 47 := by
          rintro rfl
          exact h2 (by rw [← List.mem_reverse, hx]; simp)
        rw [List.cons_append, List.dropWhile_cons, if_neg (by simpa using this)]
    dsimp only
    rw [hr, hd, if_neg (by simp), List.reverse_reverse, List.takeWhile_append_of_pos (by
      intro c hc
      simp only [decide_eq_true_eq]
      rintro rfl
      exact h2 (List.mem_reverse.1 hc))]
    simp
  unfold shownName
  rw [hbase u _ hn.1 hn.2.1]
  have hcut : ∀ (t r : Str), 45 ∉ t → cut 45 (t ++ 45 :: r) = (t, some r) := by
    intro t r ht
    induction t with
    | nil => simp [cut]
    | cons c t ih =>
      have hc : c ≠ 45 := fun e => ht (by simp [e])
      rw [List.cons_append, cut, if_neg hc, ih (fun e => ht (by simp [e]))]
  have h45 : ∀ j n, 45 ∉ tok j n := by
    intro j n hm
    have := (htok j n).2 45 hm
    unfold isHexByte at this
    omega
  have he : upName tok orig suffix i = tok i (if orig ≠ [] ∧ i = 0 then 4 else 8) ++ 45 :: (orig ++ suffix) := by
    unfold upName
    rw [if_pos ho]
    simp
  rw [he, hcut _ _ (h45 _ _)]

/-- C44: the status of an answer says what has happened to a request that comes from no other site: 404 if there is no
such file, nothing at this path or no storage; 401 without credentials, 403 with wrong ones; 413 if the upload is announced
to be too large; 405 for a method that is not supported. -/
theorem C44_answers (lib : HttpLib) (auth : UpAuth) (patterns : List Str) (enabled : Bool) (cwd : List Str) (root : Str)
    (fs fs' : UpFs) (tok : Nat → Nat → Str) (r : HttpReq) (resp : HttpResp) (ho : r.origin = [])
    (h : serveUpload lib auth patterns enabled cwd root fs tok r = some (fs', resp)) :
    (enabled = false → resp.status = 404 ∧ fs' = fs) ∧
    (enabled = true → r.method = b!"GET" ∨ r.method = b!"HEAD" →
      fs' = fs ∧ ((resp.status = 200 ∧ ∃ c, resp.content = some c) ∨ (resp.status = 404 ∧ resp.content = none))) ∧
    (enabled = true → r.method ∉ [b!"OPTIONS", b!"HEAD", b!"GET", b!"POST"] → resp.status = 405 ∧ fs' = fs) ∧
    (enabled = true → r.method = b!"POST" → r.path ≠ b!"/uploads" → resp.status = 404 ∧ fs' = fs) ∧
    (enabled = true → r.method = b!"POST" → r.path = b!"/uploads" → r.authorization = [] → resp.status = 401 ∧ fs' = fs) ∧
    (enabled = true → r.method = b!"POST" → r.path = b!"/uploads" →
      ∀ cred check u pw, r.authorization = b!"Basic " ++ cred → auth.plain = some check →
        lib.up.basicAuth r.authorization = some (u, pw) →
        (check u pw = false → resp.status = 403 ∧ fs' = fs) ∧
        (check u pw = true → r.contentType = [] → r.contentDisposition = [] → r.contentLength > 50 * 1024 * 1024 →
          resp.status = 413 ∧ fs' = fs)) ∧
    (enabled = true → r.method = b!"POST" → r.path = b!"/uploads" →
      ∀ token check, r.authorization = b!"Bearer " ++ token → auth.bearer = some check → check token = none →
        resp.status = 403 ∧ fs' = fs) := by
  have hc : setCors lib patterns r.host r.origin = .allowed none := by unfold setCors; rw [if_pos ho]
  unfold serveUpload at h
  rw [hc] at h
  dsimp only at h
  have hpost : enabled = true → r.method = b!"POST" →
      fs' = (upHandle lib.up auth cwd root fs tok r.upload).1 ∧
      resp = uploadResp lib auth none r (upHandle lib.up auth cwd root fs tok r.upload).2 := by
    intro he hm
    rw [if_neg (by rw [he]; decide), if_neg (by rw [hm]; decide), if_neg (by rw [hm]; decide), if_pos hm] at h
    simp only [Option.some.injEq, Prod.mk.injEq] at h
    exact ⟨h.1.symm, h.2.symm⟩
  refine ⟨?_, ?_, ?_, ?_, ?_, ?_, ?_⟩
  · intro he
    rw [if_pos he] at h
    simp only [Option.some.injEq, Prod.mk.injEq] at h
    obtain ⟨rfl, rfl⟩ := h
    exact ⟨rfl, rfl⟩
  · intro he hm
    rw [if_neg (by rw [he]; decide), if_neg (by rcases hm with hm | hm <;> rw [hm] <;> decide),
      if_pos (by rcases hm with hm | hm <;> rw [hm] <;> decide)] at h
    simp only [Option.some.injEq, Prod.mk.injEq] at h
    obtain ⟨rfl, rfl⟩ := h
    refine ⟨rfl, ?_⟩
    unfold fetch
    split
    · exact .inr ⟨rfl, rfl⟩
    · split
      · exact .inr ⟨rfl, rfl⟩
      · exact .inl ⟨rfl, _, rfl⟩
  · intro he hm
    simp only [List.mem_cons, List.not_mem_nil, or_false, not_or] at hm
    rw [if_neg (by rw [he]; decide), if_neg hm.1, if_neg (fun e => e.elim hm.2.1 hm.2.2.1),
      if_neg hm.2.2.2] at h
    simp only [Option.some.injEq, Prod.mk.injEq] at h
    obtain ⟨rfl, rfl⟩ := h
    exact ⟨rfl, rfl⟩
  · intro he hm hp
    obtain ⟨rfl, rfl⟩ := hpost he hm
    have : upHandle lib.up auth cwd root fs tok r.upload = (fs, .notFound) := by
      unfold upHandle
      rw [if_neg (by simp [HttpReq.upload]), if_neg (by simp [HttpReq.upload]), if_pos (show r.upload.path ≠ _ from hp)]
    rw [this]
    exact ⟨rfl, rfl⟩
  · intro he hm hp ha
    obtain ⟨rfl, rfl⟩ := hpost he hm
    have : upHandle lib.up auth cwd root fs tok r.upload = (fs, .unauthorized) := by
      unfold upHandle
      rw [if_neg (by simp [HttpReq.upload]), if_neg (by simp [HttpReq.upload]), if_neg (show ¬ r.upload.path ≠ _ from fun e => e hp)]
      have : upUser lib.up auth r.upload.authorization = .error .unauthorized := by
        change upUser lib.up auth r.authorization = _
        unfold upUser
        rw [if_pos ha]
      rw [this]
    rw [this]
    exact ⟨rfl, rfl⟩
  · intro he hm hp cred check u pw ha hpl hb
    obtain ⟨rfl, rfl⟩ := hpost he hm
    have hne : ¬ r.authorization = [] := by rw [ha]; exact List.cons_ne_nil _ _
    have hsch : asciiLower (cut 32 r.authorization).1 = b!"basic" := by rw [ha]; rfl
    constructor
    · intro hf
      have : upHandle lib.up auth cwd root fs tok r.upload = (fs, .forbidden) := by
        unfold upHandle
        rw [if_neg (by simp [HttpReq.upload]), if_neg (by simp [HttpReq.upload]), if_neg (show ¬ r.upload.path ≠ _ from fun e => e hp)]
        have : upUser lib.up auth r.upload.authorization = .error .forbidden := by
          change upUser lib.up auth r.authorization = _
          unfold upUser
          rw [if_neg hne]
          dsimp only
          rw [hsch, if_pos rfl, hpl, hb]
          dsimp only
          rw [hf]
          rfl
        rw [this]
      rw [this]
      exact ⟨rfl, rfl⟩
    · intro hf hct hcd hcl
      have : upHandle lib.up auth cwd root fs tok r.upload = (fs, .tooLarge) := by
        unfold upHandle
        rw [if_neg (by simp [HttpReq.upload]), if_neg (by simp [HttpReq.upload]), if_neg (show ¬ r.upload.path ≠ _ from fun e => e hp)]
        have hu : upUser lib.up auth r.upload.authorization = .ok u := by
          change upUser lib.up auth r.authorization = _
          unfold upUser
          rw [if_neg hne]
          dsimp only
          rw [hsch, if_pos rfl, hpl, hb]
          dsimp only
          rw [hf]
          rfl
        have hmt : upMime lib.up r.upload.contentType = .ok [] := by
          change upMime lib.up r.contentType = _
          unfold upMime
          rw [if_pos hct]
        have hbn : upBasename lib.up r.upload.contentDisposition = some [] := by
          change upBasename lib.up r.contentDisposition = _
          unfold upBasename
          rw [if_pos hcd]
        rw [hu, hmt, hbn]
        dsimp only
        rw [if_pos (by unfold upMaxSize; change r.contentLength > _; omega)]
      rw [this]
      exact ⟨rfl, rfl⟩
  · intro he hm hp token check ha hpl hf
    obtain ⟨rfl, rfl⟩ := hpost he hm
    have hne : ¬ r.authorization = [] := by rw [ha]; exact List.cons_ne_nil _ _
    have hsch : asciiLower (cut 32 r.authorization).1 = b!"bearer" := by rw [ha]; rfl
    have htok : (cut 32 r.authorization).2.getD [] = token := by rw [ha]; rfl
    have : upHandle lib.up auth cwd root fs tok r.upload = (fs, .forbidden) := by
      unfold upHandle
      rw [if_neg (by simp [HttpReq.upload]), if_neg (by simp [HttpReq.upload]), if_neg (show ¬ r.upload.path ≠ _ from fun e => e hp)]
      have : upUser lib.up auth r.upload.authorization = .error .forbidden := by
        change upUser lib.up auth r.authorization = _
        unfold upUser
        rw [if_neg hne]
        dsimp only
        rw [hsch, if_neg (by decide), if_pos rfl, hpl]
        dsimp only
        rw [htok, hf]
      rw [this]
    rw [this]
    exact ⟨rfl, rfl⟩

/-- C44: an upload that comes from no other site is answered by 400, and has no effect, if its credentials are of a kind that is
not known or not configured or cannot be decoded, or if the type or the name of the file cannot be parsed; by 415 if it is a text
in an unknown encoding. -/
theorem C44_malformed (lib : HttpLib) (auth : UpAuth) (patterns : List Str) (cwd : List Str) (root : Str)
    (fs fs' : UpFs) (tok : Nat → Nat → Str) (r : HttpReq) (resp : HttpResp) (ho : r.origin = []) (hm : r.method = b!"POST")
    (hp : r.path = b!"/uploads") (h : serveUpload lib auth patterns true cwd root fs tok r = some (fs', resp)) :
    (∀ scheme rest, r.authorization = scheme ++ b!" " ++ rest → (∀ x ∈ scheme, x ≠ 32) →
      (asciiLower scheme ∉ [b!"basic", b!"bearer"] → resp.status = 400 ∧ fs' = fs) ∧
      (asciiLower scheme = b!"basic" → auth.plain = none ∨ lib.up.basicAuth r.authorization = none → resp.status = 400 ∧ fs' = fs) ∧
      (asciiLower scheme = b!"bearer" → auth.bearer = none → resp.status = 400 ∧ fs' = fs)) ∧
    (∀ cred check u pw, r.authorization = b!"Basic " ++ cred → auth.plain = some check →
      lib.up.basicAuth r.authorization = some (u, pw) → check u pw = true →
      (r.contentType ≠ [] → lib.up.parseMedia r.contentType = none → resp.status = 400 ∧ fs' = fs) ∧
      (r.contentType = [] → r.contentDisposition ≠ [] → lib.up.parseMedia r.contentDisposition = none →
        resp.status = 400 ∧ fs' = fs) ∧
      (∀ t params cs, r.contentType ≠ [] → lib.up.parseMedia r.contentType = some (t, params) →
        GoMap.get params b!"charset" = some cs → asciiLower cs ∉ [[], b!"utf-8", b!"us-ascii"] →
        resp.status = 415 ∧ fs' = fs)) := by
  have hc : setCors lib patterns r.host r.origin = .allowed none := by unfold setCors; rw [if_pos ho]
  unfold serveUpload at h
  rw [hc] at h
  dsimp only at h
  rw [if_neg (by decide), if_neg (by rw [hm]; decide), if_neg (by rw [hm]; decide), if_pos hm] at h
  simp only [Option.some.injEq, Prod.mk.injEq] at h
  obtain ⟨rfl, rfl⟩ := h
  have hcut : ∀ (a b : Str), (∀ x ∈ a, x ≠ 32) → (cut 32 (a ++ 32 :: b)).1 = a := by
    intro a b
    induction a with
    | nil => intro _; rfl
    | cons x a ih =>
      intro hx
      show (if x = 32 then _ else _ : Str × Option Str).1 = _
      rw [if_neg (hx x (by simp))]
      exact congrArg (x :: ·) (ih (fun y hy => hx y (by simp [hy])))
  have huser : ∀ e, upUser lib.up auth r.authorization = .error e →
      upHandle lib.up auth cwd root fs tok r.upload = (fs, e) := by
    intro e he
    unfold upHandle
    rw [if_neg (by simp [HttpReq.upload]), if_neg (by simp [HttpReq.upload]), if_neg (show ¬ r.upload.path ≠ _ from fun e => e hp)]
    have : upUser lib.up auth r.upload.authorization = .error e := he
    rw [this]
  refine ⟨fun scheme rest ha hs => ?_, fun cred check u pw ha hpl hb hok => ?_⟩
  · have hne : ¬ r.authorization = [] := by rw [ha]; simp
    have hsch : (cut 32 r.authorization).1 = scheme := by
      rw [ha, List.append_assoc]
      exact hcut scheme rest hs
    refine ⟨fun hno => ?_, fun hba hnone => ?_, fun hbe hnone => ?_⟩
    · simp only [List.mem_cons, List.not_mem_nil, or_false, not_or] at hno
      rw [huser .refused (by unfold upUser; rw [if_neg hne]; dsimp only; rw [hsch, if_neg hno.1, if_neg hno.2])]
      exact ⟨rfl, rfl⟩
    · rw [huser .refused (by
        unfold upUser
        rw [if_neg hne]
        dsimp only
        rw [hsch, if_pos hba]
        rcases hnone with e | e
        · rw [e]
        · rw [e]
          cases auth.plain <;> rfl)]
      exact ⟨rfl, rfl⟩
    · rw [huser .refused (by
        unfold upUser
        rw [if_neg hne]
        dsimp only
        rw [hsch, hbe, if_neg (by decide), if_pos rfl, hnone])]
      exact ⟨rfl, rfl⟩
  · have hne : ¬ r.authorization = [] := by rw [ha]; exact List.cons_ne_nil _ _
    have hsch : asciiLower (cut 32 r.authorization).1 = b!"basic" := by rw [ha]; rfl
    have hu : upUser lib.up auth r.upload.authorization = .ok u := by
      change upUser lib.up auth r.authorization = _
      unfold upUser
      rw [if_neg hne]
      dsimp only
      rw [hsch, if_pos rfl, hpl, hb]
      dsimp only
      rw [hok]
      rfl
    have hgo : ∀ x, x = upHandle lib.up auth cwd root fs tok r.upload →
        x = (match upMime lib.up r.contentType, upBasename lib.up r.contentDisposition with
          | .error e, _ => (fs, e)
          | .ok _, none => (fs, .refused)
          | .ok mimeType, some basename =>
            if r.contentLength > upMaxSize then (fs, .tooLarge)
            else upStore lib.up cwd root fs tok u mimeType basename r.body) := by
      intro x hx
      rw [hx]
      unfold upHandle
      rw [if_neg (by simp [HttpReq.upload]), if_neg (by simp [HttpReq.upload]), if_neg (show ¬ r.upload.path ≠ _ from fun e => e hp),
        hu]
      rfl
    rw [hgo _ rfl]
    refine ⟨fun hct hpm => ?_, fun hct hcd hpm => ?_, fun t params cs hct hpm hcs hno => ?_⟩
    · have : upMime lib.up r.contentType = .error .refused := by unfold upMime; rw [if_neg hct, hpm]
      rw [this]
      exact ⟨rfl, rfl⟩
    · have h1 : upMime lib.up r.contentType = .ok [] := by unfold upMime; rw [if_pos hct]
      have h2 : upBasename lib.up r.contentDisposition = none := by unfold upBasename; rw [if_neg hcd, hpm]
      rw [h1, h2]
      exact ⟨rfl, rfl⟩
    · have : upMime lib.up r.contentType = .error .unsupported := by
        unfold upMime
        rw [if_neg hct, hpm]
        dsimp only
        rw [hcs, Option.getD_some]
        simp only [List.mem_cons, List.not_mem_nil, or_false, not_or] at hno
        rw [if_neg (fun e => e.elim hno.1 (fun e => e.elim hno.2.1 hno.2.2))]
      rw [this]
      exact ⟨rfl, rfl⟩

/-- C72: what was uploaded is what is served. If an upload is answered with success, then whatever requests the bouncer
is sent afterwards, a GET request for the location given in the answer gets exactly the uploaded data; and if the upload
named a file, it is shown under that name, completed by an extension only if it had none. Here user names contain no
colon (`C72_colon_violated`) and are plain. -/
theorem C72_roundtrip_partial (lib : HttpLib) (auth : UpAuth) (patterns : List Str) (enabled : Bool) (cwd : List Str) (root : Str)
    (fs fs' : UpFs) (tok : Nat → Nat → Str) (r : HttpReq) (resp : HttpResp)
    (hx : PlainExts lib.up) (hxb : ∀ t, ∀ e ∈ lib.up.exts t, ∀ c ∈ e, c < 256) (htok : HexTokens tok)
    (hflat : FlatDirs cwd root fs)
    (hu : ∀ u, UpAccepted lib.up auth r.authorization u → PlainName u ∧ 58 ∉ u ∧ ∀ c ∈ u, c < 256)
    (hfb : ∀ o, upBasename lib.up r.contentDisposition = some o → ∀ c ∈ o, c < 256)
    (h : serveUpload lib auth patterns enabled cwd root fs tok r = some (fs', resp)) (hs : resp.status = 201)
    (later : List HttpStep) (hlt : ∀ s ∈ later, HexTokens s.tok)
    (hlu : ∀ s ∈ later, ∀ u, UpAccepted lib.up auth s.req.authorization u → PlainName u)
    (g : HttpReq) (hg : g.method = b!"GET") (hgo : g.origin = []) (tok' : Nat → Nat → Str) :
    ∃ l, resp.location = some l ∧ (pctDecode l = some g.path →
      ∃ got, serveUpload lib auth patterns enabled cwd root (httpRun lib auth patterns enabled cwd root fs' later) tok' g =
          some (httpRun lib auth patterns enabled cwd root fs' later, got) ∧
        got.status = 200 ∧ got.content = some r.body.data ∧
        ∀ o, upBasename lib.up r.contentDisposition = some o → o ≠ [] → o ≠ b!"/" →
          ∃ inline ext, got.disposition = some (inline, o ++ ext) ∧ (pathExt o ≠ [] → ext = [])) := by
  unfold serveUpload at h
  split at h
  · cases h
  · cases h; cases hs
  rename_i allow hcors
  split at h
  · cases h; cases hs
  rename_i hen
  split at h
  · cases h; cases hs
  split at h
  · cases h
    unfold fetch at hs
    split at hs
    · cases hs
    · split at hs <;> cases hs
  split at h
  case isFalse => cases h; cases hs
  rename_i hpost
  simp only [Option.some.injEq, Prod.mk.injEq] at h
  obtain ⟨rfl, rfl⟩ := h
  have heff := upHandle_effect (auth := auth) (req := r.upload) hx htok (fun u h => (hu u h).1) hflat
  cases hst : (upHandle lib.up auth cwd root fs tok r.upload).2 with
  | tooLarge => rw [hst] at hs; cases hs
  | refused => rw [hst] at hs; cases hs
  | notFound => rw [hst] at hs; cases hs
  | unauthorized => rw [hst] at hs; cases hs
  | forbidden => rw [hst] at hs; cases hs
  | unsupported => rw [hst] at hs; cases hs
  | failed => rw [hst] at hs; cases hs
  | created p =>
    rcases heff.2 with ⟨-, hno⟩ | ⟨u, name, g1, g2, -, -, -, -, -, g6, g7, g8, orig, mime, i, g9, g10, g11, -⟩
    · exact absurd hst (hno p)
    obtain ⟨rfl, hcomp, hlen⟩ := g7 p hst
    obtain ⟨hpu, hcol, hub⟩ := hu u g1
    have hsufb : ∀ c ∈ upSuffix lib.up mime orig, c < 256 := by
      intro c hc
      unfold upSuffix at hc
      split at hc
      · split at hc
        · rename_i ext he
          have hp : ∀ e ∈ primaryExts, ∀ c ∈ b!"." ++ e.2, c < 256 := by decide +kernel
          exact hp _ (mget_some_mem he) c hc
        · split at hc
          · rename_i ext he
            exact hxb mime ext (by rw [he]; simp) c hc
          · simp at hc
      · simp at hc
    have htokb : ∀ j n, ∀ c ∈ tok j n, c < 256 := by
      intro j n c hc
      have := (htok j n).2 c hc
      unfold isHexByte at this
      omega
    have hnb : ∀ c ∈ name, c < 256 := by
      intro c hc
      have hm := g11 hc
      unfold upName at hm
      simp only [List.mem_append] at hm
      rcases hm with (hm | hm) | hm
      · exact htokb _ _ c hm
      · split at hm
        · simp only [List.mem_append, List.mem_singleton] at hm
          rcases hm with hm | hm
          · subst hm; decide
          · exact hfb orig g9 c hm
        · cases hm
      · exact hsufb c hm
    obtain ⟨l, hl, hdec⟩ := location_decodes lib.url hpu hcol hub hnb
    have hlast : (resolve cwd root ++ [u, name]).getLast?.getD [] = name := by
      simp
    refine ⟨l, ?_, ?_⟩
    · rw [uploadResp]
      have : upUser lib.up auth r.authorization = .ok u := g8
      rw [this]
      dsimp only
      rw [hlast, hl]
    · intro hpath
      rw [hdec] at hpath
      have hpath : b!"/uploads/" ++ u ++ b!"/" ++ name = g.path := Option.some.inj hpath
      obtain ⟨f, hf, hres, hfe⟩ := C43_roundtrip cwd root u name hpu g2
      have hkeep := run_keeps (lib := lib) (auth := auth) (patterns := patterns) (enabled := enabled) (cwd := cwd) (root := root)
        hx later _ hlt hlu heff.1 (resolve cwd root ++ [u, name]) r.body.data (by
          rw [g6, mget_mset, if_pos rfl, List.take_of_length_le hlen]
          rfl)
      have hcg : setCors lib patterns g.host g.origin = .allowed none := by
        unfold setCors
        rw [if_pos hgo]
      unfold serveUpload
      rw [hcg]
      dsimp only
      rw [if_neg hen, hg, if_neg (by decide), if_pos (by decide)]
      refine ⟨_, rfl, ?_, ?_, ?_⟩
      all_goals unfold fetch
      all_goals rw [← hpath, hf]
      all_goals dsimp only
      all_goals rw [hres, hkeep]
      intro o hob ho1 ho2
      have hob : some orig = some o := g9.symm.trans hob
      cases hob
      have hne := g10 ho2
      subst hne
      have hsn : shownName f = orig ++ upSuffix lib.up mime orig := by rw [hfe, shown_name htok g2 ho1]
      refine ⟨decide (lib.mediaType (fetchType lib (shownName f) r.body.data) ∈ inlineMimeTypes),
        upSuffix lib.up mime orig, ?_, ?_⟩
      · dsimp only
        rw [hsn]
      · intro he
        unfold upSuffix
        rw [if_neg (fun h => he h.1)]

/-! ## Addresses -/

/-- An address lies in one of the networks of trusted proxies. -/
def TrustedAddr (proxies : List IpNet) (ip : List Byte) : Prop :=
  ∃ n ∈ proxies, ∃ bits v, Cidr n bits ∧ PlainAddr ip v ∧ InNet n bits v

private theorem trusted_iff {proxies : List IpNet} (hp : ∀ n ∈ proxies, ∃ bits, Cidr n bits) {ip : List Byte}
    (hl : ip.length = 4 ∨ ip.length = 16) (hb : ∀ b ∈ ip, b < 256) :
    ipSetContains proxies ip = true ↔ TrustedAddr proxies ip := by
  unfold ipSetContains TrustedAddr
  rw [List.any_eq_true]
  constructor
  · rintro ⟨n, h1, h2⟩
    obtain ⟨bits, hc⟩ := hp n h1
    obtain ⟨v, h3, h4⟩ := (C46_contains n bits hc ip hl hb).1 h2
    exact ⟨n, h1, bits, v, hc, h3, h4⟩
  · rintro ⟨n, h1, bits, v, hc, h3, h4⟩
    exact ⟨n, h1, (C46_contains n bits hc ip hl hb).2 ⟨v, h3, h4⟩⟩

/-- C74: the address of a client on TCP is that of its peer, unless the peer is a trusted proxy that sends another
one; a local peer is never taken for a proxy. -/
theorem C74_proxy (proxies : List IpNet) (hp : ∀ n ∈ proxies, ∃ bits, Cidr n bits) (peer : Str) (header : Option Str) :
    proxyRemoteAddr proxies none peer header = peer ∧
    ∀ ip, ip.length = 4 ∨ ip.length = 16 → (∀ b ∈ ip, b < 256) →
      (¬ TrustedAddr proxies ip → proxyRemoteAddr proxies (some ip) peer header = peer) ∧
      (TrustedAddr proxies ip → proxyRemoteAddr proxies (some ip) peer header = header.getD peer) := by
  refine ⟨rfl, ?_⟩
  intro ip hl hb
  unfold proxyRemoteAddr useProxyHeader
  dsimp only
  constructor
  · intro h
    rw [if_neg (fun e => h ((trusted_iff hp hl hb).1 e))]
  · intro h
    rw [if_pos ((trusted_iff hp hl hb).2 h)]

/-- C74: nothing that a client writes changes the address it is known by, unless it connects from the address of a
trusted proxy: for every header of the PROXY protocol and of HTTP, the address is that of the peer. -/
theorem C74_not_spoofed (lib : AddrLib) (proxies : List IpNet) (hp : ∀ n ∈ proxies, ∃ bits, Cidr n bits) (peer : Str)
    (host port : Str) (ip : List Byte) (hl : ip.length = 4 ∨ ip.length = 16) (hb : ∀ b ∈ ip, b < 256)
    (h1 : splitHostPort peer = some (host, port)) (h2 : lib.parseIp host = some ip) (hn : ¬ TrustedAddr proxies ip)
    (header : Option Str) (h : ForwardedHdrs) :
    wsClientAddr lib proxies (some ip) peer header h = peer := by
  unfold wsClientAddr
  rw [((C74_proxy proxies hp peer header).2 ip hl hb).1 hn]
  unfold wsRemoteAddr
  rw [h1]
  dsimp only
  rw [h2]
  dsimp only
  rw [if_neg (fun e => hn ((trusted_iff hp hl hb).1 e))]

/-- C74: nor does anything change the address of a peer that has no IP address, such as one on a Unix socket. -/
theorem C74_local (lib : AddrLib) (proxies : List IpNet) (peer : Str)
    (h1 : ∀ host port, splitHostPort peer = some (host, port) → lib.parseIp host = none)
    (header : Option Str) (h : ForwardedHdrs) :
    wsClientAddr lib proxies none peer header h = peer := by
  change wsRemoteAddr lib proxies peer h = peer
  unfold wsRemoteAddr
  cases hs : splitHostPort peer with
  | none => rfl
  | some hp =>
    obtain ⟨host, port⟩ := hp
    dsimp only
    rw [h1 host port hs]
    rfl

example : splitHostPort b!"@" = none ∧ splitHostPort b!"/run/soju/http" = none := by decide

/-- C74: behind a trusted proxy, the address is the one the proxy names. -/
theorem C74_forwarded (lib : AddrLib) (proxies : List IpNet) (hp : ∀ n ∈ proxies, ∃ bits, Cidr n bits) (peer : Str)
    (host port : Str) (ip : List Byte) (hl : ip.length = 4 ∨ ip.length = 16) (hb : ∀ b ∈ ip, b < 256)
    (h1 : splitHostPort peer = some (host, port)) (h2 : lib.parseIp host = some ip) (ht : TrustedAddr proxies ip)
    (h : ForwardedHdrs) :
    (h.forwarded = [] → h.xForwardedFor = [] → wsClientAddr lib proxies (some ip) peer none h = peer) ∧
    (h.forwarded = [] → h.xForwardedFor ≠ [] → wsClientAddr lib proxies (some ip) peer none h = h.xForwardedFor) ∧
    (∀ a, h.forwarded ≠ [] → a ≠ [] → GoMap.get (lib.mediaParams (b!"hack; " ++ h.forwarded)) b!"for" = some a →
      wsClientAddr lib proxies (some ip) peer none h = a) := by
  unfold wsClientAddr
  rw [((C74_proxy proxies hp peer none).2 ip hl hb).2 ht]
  unfold wsRemoteAddr
  rw [Option.getD_none, h1]
  dsimp only
  rw [h2]
  dsimp only
  rw [if_pos ((trusted_iff hp hl hb).2 ht)]
  unfold forwardedFor
  refine ⟨?_, ?_, ?_⟩
  · intro e1 e2
    rw [if_pos e1, if_neg (fun e => e e2)]
  · intro e1 e2
    rw [if_pos e1, if_pos e2]
  · intro a e1 e2 e3
    rw [if_neg e1, e3, Option.getD_some, if_pos e2]

/-! ## Cases -/

/-- A library for the cases. -/
def httpLibEx : HttpLib :=
  { up := upLibEx, url := ⟨some, fun _ => true⟩, typeByExt := fun e => if e = b!".png" then b!"image/png" else [],
    detect := fun _ => b!"text/html; charset=utf-8", mediaType := fun s => (cut 59 s).1 }

/-- An upload of alice's from a page of another site. -/
def httpReqEx : HttpReq :=
  { method := b!"POST", host := b!"irc.example", origin := b!"https://chat.example.org", path := b!"/uploads",
    authorization := b!"Basic alice:pw", contentType := [], contentDisposition := b!"attachment", contentLength := -1,
    body := { data := b!"data", complete := true } }

/-- The directory of uploads, empty. -/
def httpFsEx : UpFs := { files := [], dirs := [[], [b!"srv"]] }

private theorem urlEx_slashless : SlashlessHosts httpLibEx.url := by
  intro s h e
  cases e
  exact fun h => h

private theorem patEx_valid : ∀ p ∈ [b!"*.example.org"], ∃ toks, GlobSyntax p toks := by
  intro p h
  simp only [List.mem_singleton] at h
  subst h
  exact (pathMatch_valid _ []).1 (by decide +kernel)

private theorem siteEx (patterns : List Str) (hp : ∀ p ∈ patterns, ∃ toks, GlobSyntax p toks) (o : Str) :
    SiteAllowed httpLibEx.url patterns b!"irc.example" o ∨ o = [] ↔
      setCors httpLibEx patterns b!"irc.example" o ≠ .refused := by
  rcases cors_iff (lib := httpLibEx) urlEx_slashless hp b!"irc.example" o with ⟨h, h'⟩ | ⟨h, h1, h'⟩ | ⟨h, h1, h'⟩
  · rw [h']; simp [h]
  · simp [h, h1, h']
  · simp [h, h1, h']

/-- The site of the request is allowed by a pattern; another one is refused. -/
example : SiteAllowed httpLibEx.url [b!"*.example.org"] b!"irc.example" httpReqEx.origin ∧
    ¬ SiteAllowed httpLibEx.url [b!"*.example.org"] b!"irc.example" b!"https://evil.example" ∧
    SiteAllowed httpLibEx.url [] b!"irc.example" b!"https://IRC.example" := by
  refine ⟨?_, ?_, ?_⟩
  · exact ((siteEx _ patEx_valid _).2 (by decide +kernel)).resolve_right (by decide)
  · intro h
    exact absurd (siteEx [b!"*.example.org"] patEx_valid b!"https://evil.example" |>.1 (.inl h)) (by decide +kernel)
  · exact ((siteEx [] (by simp) _).2 (by decide +kernel)).resolve_right (by decide)

/-- The picture is uploaded, another user's upload follows, and the picture is served inline under its name. -/
example :
    ∃ fs resp, serveUpload httpLibEx upAuthEx [b!"*.example.org"] true [] b!"/srv" httpFsEx upTokEx httpReqEx = some (fs, resp) ∧
      resp.status = 201 ∧ resp.location = some b!"/uploads/alice/beef0-pic.png" ∧
      serveUpload httpLibEx upAuthEx [b!"*.example.org"] true [] b!"/srv"
        (httpRun httpLibEx upAuthEx [b!"*.example.org"] true [] b!"/srv" fs [⟨httpReqEx, upTokEx⟩]) upTokEx
        { httpReqEx with method := b!"GET", origin := [], path := b!"/uploads/alice/beef0-pic.png" } =
      some (httpRun httpLibEx upAuthEx [b!"*.example.org"] true [] b!"/srv" fs [⟨httpReqEx, upTokEx⟩],
        ⟨200, b!"sandbox; default-src 'none'; script-src 'none'; media-src 'self';", none, none, b!"image/png",
          some (true, b!"pic.png"), some b!"data"⟩) := ⟨_, _, rfl, by decide +kernel, by decide +kernel, by decide +kernel⟩

/-- Wrong passwords and announced lengths above the limit are answered with 403 and 413. -/
example : ((serveUpload httpLibEx upAuthEx [] true [] b!"/srv" httpFsEx upTokEx
      { httpReqEx with origin := [], authorization := b!"Basic alice:xx" }).map (·.2.status) = some 403) ∧
    ((serveUpload httpLibEx upAuthEx [] true [] b!"/srv" httpFsEx upTokEx
      { httpReqEx with origin := [], contentLength := 52428801 }).map (·.2.status) = some 413) := by
  constructor <;> decide +kernel

/-- Credentials of an unknown kind are answered with 400. -/
example : (serveUpload httpLibEx upAuthEx [] true [] b!"/srv" httpFsEx upTokEx
      { httpReqEx with origin := [], authorization := b!"Digest alice" }).map (·.2.status) = some 400 ∧
    asciiLower b!"Digest" ∉ [b!"basic", b!"bearer"] ∧ (∀ x ∈ b!"Digest", x ≠ 32) := by
  refine ⟨?_, ?_, ?_⟩ <;> decide +kernel

/-- A file whose content is recognized as HTML is not shown. -/
example :
    ∃ resp, serveUpload httpLibEx upAuthEx [] true [] b!"/srv"
        { files := [([b!"srv", b!"alice", b!"beef0-page"], b!"<html>")], dirs := [] } upTokEx
        { httpReqEx with method := b!"GET", origin := [], path := b!"/uploads/alice/beef0-page" } =
        some ({ files := [([b!"srv", b!"alice", b!"beef0-page"], b!"<html>")], dirs := [] }, resp) ∧
      resp.status = 200 ∧ httpLibEx.mediaType resp.contentType ∈ scriptTypes ∧
      resp.disposition = some (false, b!"page") := ⟨_, rfl, by decide +kernel, by decide +kernel, by decide +kernel⟩

/-- C72: the code does not give back the file of a user whose name contains a colon, which soju allows: the location of
the file of `a:b` is outside of `/uploads/`, and the upload of `1:b` is answered with an error although the file was
stored. -/
theorem C72_colon_violated :
    ∃ auth : UpAuth, ∃ r1 r2 : HttpReq, ∃ fs1 resp1 fs2 resp2,
      serveUpload httpLibEx auth [] true [] b!"/srv" httpFsEx upTokEx r1 = some (fs1, resp1) ∧
      resp1.status = 201 ∧ resp1.location = some b!"a:b/beef0-pic.png" ∧
      GoMap.get fs1.files [b!"srv", b!"a:b", b!"beef0-pic.png"] = some b!"data" ∧
      serveUpload httpLibEx auth [] true [] b!"/srv" httpFsEx upTokEx r2 = some (fs2, resp2) ∧
      resp2.status = 500 ∧ resp2.location = none ∧
      GoMap.get fs2.files [b!"srv", b!"1:b", b!"beef0-pic.png"] = some b!"data" := by
  refine ⟨⟨none, some (fun t => some t)⟩, { httpReqEx with origin := [], authorization := b!"Bearer a:b" },
    { httpReqEx with origin := [], authorization := b!"Bearer 1:b" }, _, _, _, _, rfl, ?_, ?_, ?_, rfl, ?_, ?_, ?_⟩
  all_goals decide +kernel

/-- A proxy in 10.0.0.0/8 is trusted, other addresses are not. -/
example : (∀ n ∈ [(⟨[10, 0, 0, 0], [255, 0, 0, 0]⟩ : IpNet)], ∃ bits, Cidr n bits) ∧
    TrustedAddr [⟨[10, 0, 0, 0], [255, 0, 0, 0]⟩] [10, 1, 2, 3] ∧
    ¬ TrustedAddr [⟨[10, 0, 0, 0], [255, 0, 0, 0]⟩] [192, 0, 2, 1] ∧
    splitHostPort b!"192.0.2.1:4242" = some (b!"192.0.2.1", b!"4242") := by
  have hc : Cidr (⟨[10, 0, 0, 0], [255, 0, 0, 0]⟩ : IpNet) 8 := by
    refine ⟨.inl rfl, ?_, ?_, ?_⟩ <;> decide
  have hp : ∀ n ∈ [(⟨[10, 0, 0, 0], [255, 0, 0, 0]⟩ : IpNet)], ∃ bits, Cidr n bits := by
    intro n h
    simp only [List.mem_singleton] at h
    subst h
    exact ⟨8, hc⟩
  refine ⟨hp, ?_, ?_, by decide⟩
  · exact (trusted_iff hp (.inl rfl) (by decide)).1 (by decide)
  · intro h
    exact absurd ((trusted_iff hp (.inl rfl) (by decide)).2 h) (by decide)

end Verif.Props
