import Verif.Model.UploadHttp
import Verif.Props.HttpFront

/-! # C95: uploads that are kept by another service -/

namespace Verif.Props
open Verif.Model Verif.Spec Verif.Proof

private theorem takeWhile_stop {p : Byte → Bool} : ∀ (a b : Str) (c : Byte), (∀ x ∈ a, p x = true) → p c = false →
    (a ++ c :: b).takeWhile p = a := by
  intro a
  induction a with
  | nil => intro b c _ hc; simp [hc]
  | cons x a ih =>
    intro b c h hc
    simp only [List.cons_append]
    rw [List.takeWhile_cons_of_pos (h x (by simp)), ih b c (fun y hy => h y (by simp [hy])) hc]

private theorem tw_all {p : Byte → Bool} : ∀ (a : Str), (∀ x ∈ a, p x = true) → a.takeWhile p = a := by
  intro a
  induction a with
  | nil => intro _; rfl
  | cons x a ih => intro h; rw [List.takeWhile_cons_of_pos (h x (by simp)), ih (fun y hy => h y (by simp [hy]))]

private theorem base_of {dir name : Str} (hn : name ≠ []) (h47 : 47 ∉ name) (hd : dir = [] ∨ ∃ d, dir = d ++ [47]) :
    pathBase (dir ++ name) = name := by
  unfold pathBase
  rw [if_neg (by simp [hn])]
  have hr : ∀ x ∈ name.reverse, (decide (x ≠ 47)) = true := by
    intro x hx
    simp only [List.mem_reverse] at hx
    exact decide_eq_true (fun e => h47 (e ▸ hx))
  obtain ⟨x, m, hm⟩ : ∃ x m, name.reverse = x :: m := by
    cases h : name.reverse with
    | nil => simp only [List.reverse_eq_nil_iff] at h; exact absurd h hn
    | cons x m => exact ⟨x, m, rfl⟩
  have hx : x ≠ 47 := fun e => h47 (by rw [← List.mem_reverse, hm, e]; simp)
  have hdw : (dir ++ name).reverse.dropWhile (fun c => decide (c = 47)) = (dir ++ name).reverse := by
    rw [List.reverse_append, hm, List.cons_append, List.dropWhile_cons_of_neg (by simpa using hx)]
  dsimp only
  rw [hdw, List.reverse_reverse, if_neg (by simp [hn]), List.reverse_append]
  rcases hd with rfl | ⟨d, rfl⟩
  · rw [List.reverse_nil, List.append_nil, tw_all _ hr, List.reverse_reverse]
  · rw [List.reverse_append, List.reverse_singleton, List.singleton_append, takeWhile_stop _ _ _ hr (by decide),
      List.reverse_reverse]

/-- What a request that is sent looks like. -/
private theorem sent_inv {lib : StoreLib} {auth : UpAuth} {url : Str} {service : StoreReq → Except StoreErr StoreResp}
    {allow : Option Str} {r : HttpReq} :
    ((storeHttp lib auth url service allow r).1 = [] ∧
      (storeHttp lib auth url service allow r).2.status ∈ [400, 401, 403, 404, 413, 415, 500] ∧
      (storeHttp lib auth url service allow r).2.location = none ∧
      (storeHttp lib auth url service allow r).2.content = none ∧
      (storeHttp lib auth url service allow r).2.csp = uploadCsp ∧
      (storeHttp lib auth url service allow r).2.allowOrigin = allow) ∨
    (r.path = b!"/uploads" ∧ ∃ u t o, upUser lib.http.up auth r.authorization = .ok u ∧
      upMime lib.http.up r.contentType = .ok t ∧ upBasename lib.http.up r.contentDisposition = some o ∧
      ¬ r.contentLength > upMaxSize ∧
      storeHttp lib auth url service allow r = ([storeReq lib url u t o r.body],
        match storeResult (service (storeReq lib url u t o r.body)) with
            | .location l =>
              match lib.resolve l with
              | none => bareResp 500 allow
              | some l => { bareResp 201 allow with location := some l }
            | .passed resp => { bareResp resp.status allow with contentType := resp.contentType, content := some resp.content }
            | .tooLarge => bareResp 413 allow
            | .failed => bareResp 500 allow)) := by
  unfold storeHttp
  split
  · exact .inl ⟨rfl, by simp [bareResp], rfl, rfl, rfl, rfl⟩
  · rename_i hp
    split
    · rename_i e he
      left
      unfold upUser at he
      dsimp only at he
      refine ⟨rfl, ?_⟩
      dsimp only
      have : e = .unauthorized ∨ e = .refused ∨ e = .forbidden := by
        repeat' split at he
        all_goals cases he
        all_goals simp
      rcases this with rfl | rfl | rfl <;> exact ⟨by simp [uploadResp, bareResp], rfl, rfl, rfl, rfl⟩
    · rename_i u hu
      split
      · rename_i e hm
        left
        refine ⟨rfl, ?_⟩
        rcases upMime_error hm with rfl | rfl <;> exact ⟨by simp [uploadResp, bareResp], rfl, rfl, rfl, rfl⟩
      · exact .inl ⟨rfl, by simp [bareResp], rfl, rfl, rfl, rfl⟩
      · rename_i t o hm ho
        split
        · exact .inl ⟨rfl, by simp [bareResp], rfl, rfl, rfl, rfl⟩
        · rename_i hc
          exact .inr ⟨Decidable.not_not.1 hp, u, t, o, hu, hm, ho, hc, rfl⟩

private theorem serve_inv {lib : StoreLib} {auth : UpAuth} {patterns : List Str} {url : Str}
    {service : StoreReq → Except StoreErr StoreResp} {r : HttpReq} {sent : List StoreReq} {resp : HttpResp}
    (h : serveHttp lib auth patterns url service r = some (sent, resp)) :
    (sent = [] ∧ resp.status ∈ [204, 400, 401, 403, 404, 405, 413, 415, 500] ∧ resp.location = none ∧ resp.content = none ∧
      resp.csp = uploadCsp) ∨
    (r.method = b!"POST" ∧ ∃ allow, setCors lib.http patterns r.host r.origin = .allowed allow ∧
      (sent, resp) = storeHttp lib auth url service allow r) := by
  unfold serveHttp at h
  split at h
  · cases h
  · cases h; exact .inl ⟨rfl, by simp [bareResp], rfl, rfl, rfl⟩
  · rename_i allow hc
    split at h
    · cases h; exact .inl ⟨rfl, by simp [bareResp], rfl, rfl, rfl⟩
    · split at h
      · cases h; exact .inl ⟨rfl, by simp [bareResp], rfl, rfl, rfl⟩
      · split at h
        · rename_i hm
          exact .inr ⟨hm, allow, hc, (Option.some.inj h).symm⟩
        · cases h; exact .inl ⟨rfl, by simp [bareResp], rfl, rfl, rfl⟩

/-- C95: the service gets at most one request for a request of a client, and only for an upload with credentials that are
accepted, of a page that is allowed, whose announced length is within the limit. The request names the user whose
credentials they are, carries the last element of the file name and the type given by the client, and the content up to
the limit: complete only if the client's upload is complete and within the limit. -/
theorem C95_sent (lib : StoreLib) (auth : UpAuth) (patterns : List Str) (url : Str)
    (service : StoreReq → Except StoreErr StoreResp) (r : HttpReq) (sent : List StoreReq) (resp : HttpResp)
    (hl : SlashlessHosts lib.http.url) (hp : ∀ p ∈ patterns, ∃ toks, GlobSyntax p toks)
    (h : serveHttp lib auth patterns url service r = some (sent, resp)) (req : StoreReq) (hr : req ∈ sent) :
    sent = [req] ∧ r.method = b!"POST" ∧ r.path = b!"/uploads" ∧
    (r.origin = [] ∨ SiteAllowed lib.http.url patterns r.host r.origin) ∧ r.contentLength ≤ 50 * 1024 * 1024 ∧
    req.url = url ∧ UpAccepted lib.http.up auth r.authorization req.username ∧
    (r.contentType = [] → req.contentType = none) ∧
    (∀ t params, r.contentType ≠ [] → lib.http.up.parseMedia r.contentType = some (t, params) →
      req.contentType = if t = [] ∨ t = b!"application/octet-stream" then none else some t) ∧
    (r.contentDisposition = [] → req.contentDisposition = none) ∧
    (∀ t params dir name, r.contentDisposition ≠ [] → lib.http.up.parseMedia r.contentDisposition = some (t, params) →
      GoMap.get params b!"filename" = some (dir ++ name) → (dir = [] ∨ ∃ d, dir = d ++ b!"/") → name ≠ [] → 47 ∉ name →
      req.contentDisposition = some (lib.disposition name)) ∧
    req.body.data = r.body.data.take (50 * 1024 * 1024) ∧
    (req.body.complete = true ↔ r.body.complete = true ∧ r.body.data.length ≤ 50 * 1024 * 1024) := by
  rcases serve_inv h with ⟨h0, _⟩ | ⟨hm, allow, hc, he⟩
  · rw [h0] at hr; cases hr
  · rcases sent_inv (lib := lib) (auth := auth) (url := url) (service := service) (allow := allow) (r := r) with
      ⟨h1, _⟩ | ⟨hpath, u, t, o, hu, ht, ho, hlen, hs⟩
    · have : sent = [] := by rw [← h1, ← he]
      rw [this] at hr; cases hr
    · rw [hs] at he
      have hsent := congrArg Prod.fst he
      dsimp only at hsent
      rw [hsent, List.mem_singleton] at hr
      subst hr
      refine ⟨hsent, hm, hpath, ?_, ?_, rfl, upUser_ok hu, ?_, ?_, ?_, ?_, rfl, ?_⟩
      · rcases cors_iff hl hp r.host r.origin with ⟨g, _⟩ | ⟨_, g, _⟩ | ⟨_, _, g⟩
        · exact .inl g
        · exact .inr g
        · rw [g] at hc; cases hc
      · unfold upMaxSize at hlen; omega
      · intro e
        unfold upMime at ht
        rw [if_pos e] at ht
        cases ht
        rfl
      · intro t' ps e1 e2
        unfold upMime at ht
        rw [if_neg e1, e2] at ht
        dsimp only at ht
        split at ht
        · cases ht
          dsimp only [storeReq]
          by_cases e : t' = b!"application/octet-stream"
          · simp [e]
          · by_cases e' : t' = []
            · simp [e']
            · simp [e, e']
        · cases ht
      · intro e
        unfold upBasename at ho
        rw [if_pos e] at ho
        cases ho
        rfl
      · intro t' ps dir name e1 e2 e3 e4 e5 e6
        unfold upBasename at ho
        rw [if_neg e1, e2] at ho
        dsimp only at ho
        rw [e3, Option.getD_some, base_of e5 e6 e4] at ho
        cases ho
        dsimp only [storeReq]
        rw [if_pos e5]
      · dsimp only [storeReq, limitBody, upCopy]
        simp only [Bool.and_eq_true, decide_eq_true_eq]
        unfold upMaxSize
        exact Iff.rfl

/-- C95: an upload with accepted credentials and a length within the limit is sent to the service. -/
theorem C95_forwarded (lib : StoreLib) (auth : UpAuth) (patterns : List Str) (url : Str)
    (service : StoreReq → Except StoreErr StoreResp) (r : HttpReq) (check : Str → Str → Bool) (cred u pw : Str)
    (hl : SlashlessHosts lib.http.url) (hp : ∀ p ∈ patterns, ∃ toks, GlobSyntax p toks)
    (ho : r.origin = [] ∨ SiteAllowed lib.http.url patterns r.host r.origin) (hm : r.method = b!"POST")
    (hpath : r.path = b!"/uploads") (ha : r.authorization = b!"Basic " ++ cred) (hpl : auth.plain = some check)
    (hb : lib.http.up.basicAuth r.authorization = some (u, pw)) (hc : check u pw = true) (hct : r.contentType = [])
    (hcd : r.contentDisposition ≠ [] → lib.http.up.parseMedia r.contentDisposition ≠ none)
    (hlen : r.contentLength ≤ 50 * 1024 * 1024) :
    ∃ req resp, serveHttp lib auth patterns url service r = some ([req], resp) ∧ req.username = u := by
  have hcors : ∃ allow, setCors lib.http patterns r.host r.origin = .allowed allow := by
    rcases cors_iff hl hp r.host r.origin with ⟨_, g⟩ | ⟨_, _, g⟩ | ⟨g1, g2, _⟩
    · exact ⟨_, g⟩
    · exact ⟨_, g⟩
    · exact absurd ho (fun e => e.elim g1 g2)
  obtain ⟨allow, hcors⟩ := hcors
  have hne : ¬ r.authorization = [] := by rw [ha]; exact List.cons_ne_nil _ _
  have hsch : asciiLower (cut 32 r.authorization).1 = b!"basic" := by rw [ha]; rfl
  have hu : upUser lib.http.up auth r.authorization = .ok u := by
    unfold upUser
    rw [if_neg hne]
    dsimp only
    rw [hsch, if_pos rfl, hpl, hb]
    dsimp only
    rw [hc]
    rfl
  have ht : upMime lib.http.up r.contentType = .ok [] := by
    unfold upMime
    rw [if_pos hct]
  have hbn : ∃ o, upBasename lib.http.up r.contentDisposition = some o := by
    unfold upBasename
    split
    · exact ⟨_, rfl⟩
    · rename_i hne
      split
      · rename_i e
        exact absurd e (hcd hne)
      · exact ⟨_, rfl⟩
  obtain ⟨o, hbn⟩ := hbn
  refine ⟨storeReq lib url u [] o r.body, (storeHttp lib auth url service allow r).2, ?_, rfl⟩
  have : (storeHttp lib auth url service allow r).1 = [storeReq lib url u [] o r.body] := by
    unfold storeHttp
    rw [if_neg (fun e => e hpath), hu, ht, hbn]
    dsimp only
    rw [if_neg (by unfold upMaxSize; omega)]
  unfold serveHttp
  rw [hcors]
  dsimp only
  rw [if_neg (by rw [hm]; decide), if_neg (by rw [hm]; decide), if_pos hm, ← this]

/-- C95: what the client is told. If nothing was sent to the service, the answer is neither a success nor does it carry
a location or content. If a request was sent: the answer is a success exactly if the service created the file and gave
its location, and then the client gets that location; an error of the service is passed on with its status, type and
content; an upload that is too large is answered with 413, everything else with 500. -/
theorem C95_answer (lib : StoreLib) (auth : UpAuth) (patterns : List Str) (url : Str)
    (service : StoreReq → Except StoreErr StoreResp) (r : HttpReq) (sent : List StoreReq) (resp : HttpResp)
    (h : serveHttp lib auth patterns url service r = some (sent, resp)) :
    (sent = [] → resp.status ≠ 201 ∧ resp.location = none ∧ resp.content = none) ∧
    ∀ req, sent = [req] →
      (resp.status = 201 ↔ ∃ a l, service req = .ok a ∧ a.status = 201 ∧ a.location ≠ [] ∧ lib.resolve a.location = some l) ∧
      (∀ l, resp.location = some l ↔
        ∃ a, service req = .ok a ∧ a.status = 201 ∧ a.location ≠ [] ∧ lib.resolve a.location = some l) ∧
      (∀ a, service req = .ok a → 400 ≤ a.status → a.status < 600 →
        resp.status = a.status ∧ resp.contentType = a.contentType ∧ resp.content = some a.content) ∧
      (service req = .error .tooLarge → resp.status = 413) ∧
      (service req = .error .other → resp.status = 500) ∧
      (∀ a, service req = .ok a → ¬ (400 ≤ a.status ∧ a.status < 600) → resp.status = 201 ∨ resp.status = 500) := by
  rcases serve_inv h with ⟨h0, h1, h2, h3, _⟩ | ⟨hm, allow, hc, he⟩
  · refine ⟨fun _ => ⟨fun e => (by rw [e] at h1; revert h1; decide), h2, h3⟩, ?_⟩
    intro req hr
    rw [h0] at hr; cases hr
  · rcases sent_inv (lib := lib) (auth := auth) (url := url) (service := service) (allow := allow) (r := r) with
      ⟨h1, h2, h3, h4, _⟩ | ⟨hpath, u, t, o, hu, ht, ho, hlen, hs⟩
    · rw [← he] at h1 h2 h3 h4
      refine ⟨fun _ => ⟨fun e => (by dsimp only at h2; rw [e] at h2; revert h2; decide), h3, h4⟩, ?_⟩
      intro req hr
      dsimp only at h1
      rw [h1] at hr; cases hr
    · rw [hs] at he
      have hsent := congrArg Prod.fst he
      have hresp := congrArg Prod.snd he
      dsimp only at hsent hresp
      refine ⟨fun e => (by rw [e] at hsent; cases hsent), ?_⟩
      intro req hr
      rw [hr] at hsent
      cases hsent
      generalize storeReq lib url u t o r.body = req at *
      subst hresp
      cases hsv : service req with
      | error e =>
        cases e <;> simp [storeResult, bareResp]
      | ok a =>
        by_cases h45 : 400 ≤ a.status ∧ a.status < 600
        · have hst : storeResult (.ok a) = .passed a := by unfold storeResult; dsimp only; rw [if_pos h45]
          rw [hst]
          have hn : a.status ≠ 201 := by omega
          simp [bareResp, hn, h45.1, h45.2]
          omega
        · by_cases h201 : a.status = 201
          · by_cases hloc : a.location = []
            · have hst : storeResult (.ok a) = .failed := by
                unfold storeResult; dsimp only; rw [if_neg h45, if_neg (fun e => e h201), if_pos hloc]
              rw [hst]
              simp [bareResp, hloc]
              omega
            · have hst : storeResult (.ok a) = .location a.location := by
                unfold storeResult; dsimp only; rw [if_neg h45, if_neg (fun e => e h201), if_neg hloc]
              rw [hst]
              cases hres : lib.resolve a.location <;> simp [bareResp, hloc, h201, hres]
          · have hst : storeResult (.ok a) = .failed := by
              unfold storeResult; dsimp only; rw [if_neg h45, if_pos h201]
            rw [hst]
            simp [bareResp, h201]
            omega

/-- C95: success means that the service has the file: if the service does not answer incomplete requests with 201, an
upload that is answered with 201 is complete and within the limit, and the service got exactly its content. -/
theorem C95_whole (lib : StoreLib) (auth : UpAuth) (patterns : List Str) (url : Str)
    (service : StoreReq → Except StoreErr StoreResp) (r : HttpReq) (sent : List StoreReq) (resp : HttpResp)
    (hl : SlashlessHosts lib.http.url) (hp : ∀ p ∈ patterns, ∃ toks, GlobSyntax p toks)
    (hs : ∀ req a, service req = .ok a → a.status = 201 → req.body.complete = true)
    (h : serveHttp lib auth patterns url service r = some (sent, resp)) (h201 : resp.status = 201) :
    ∃ req, sent = [req] ∧ req.body.data = r.body.data ∧ r.body.complete = true ∧ r.body.data.length ≤ 50 * 1024 * 1024 := by
  have ha := C95_answer lib auth patterns url service r sent resp h
  cases sent with
  | nil => exact absurd h201 (ha.1 rfl).1
  | cons req rest =>
    have hsent := C95_sent lib auth patterns url service r _ resp hl hp h req (by simp)
    obtain ⟨h1, _, _, _, _, _, _, _, _, _, _, hd, hc⟩ := hsent
    obtain ⟨a, l, g1, g2, _, _⟩ := ((ha.2 req h1).1).1 h201
    have := hc.1 (hs req a g1 g2)
    exact ⟨req, h1, by rw [hd, List.take_of_length_le this.2], this.1, this.2⟩

/-- C95: files are not served by the bouncer then, and asking for them has no effect on the service. -/
theorem C95_no_fetch (lib : StoreLib) (auth : UpAuth) (patterns : List Str) (url : Str)
    (service : StoreReq → Except StoreErr StoreResp) (r : HttpReq) (sent : List StoreReq) (resp : HttpResp)
    (ho : r.origin = []) (hm : r.method = b!"GET" ∨ r.method = b!"HEAD")
    (h : serveHttp lib auth patterns url service r = some (sent, resp)) :
    sent = [] ∧ resp.status = 404 ∧ resp.content = none := by
  unfold serveHttp setCors at h
  rw [if_pos ho] at h
  dsimp only at h
  rw [if_neg (by rcases hm with hm | hm <;> rw [hm] <;> decide),
    if_pos (by rcases hm with hm | hm <;> rw [hm] <;> decide)] at h
  cases h
  exact ⟨rfl, rfl, rfl⟩

/-- C95: the answers of the service, too, are kept from running scripts, and from the pages of other sites. -/
theorem C95_contained (lib : StoreLib) (auth : UpAuth) (patterns : List Str) (url : Str)
    (service : StoreReq → Except StoreErr StoreResp) (r : HttpReq) (hl : SlashlessHosts lib.http.url)
    (hp : ∀ p ∈ patterns, ∃ toks, GlobSyntax p toks) :
    ∃ sent resp, serveHttp lib auth patterns url service r = some (sent, resp) ∧
      resp.csp = b!"sandbox; default-src 'none'; script-src 'none'; media-src 'self';" ∧
      ∀ o, resp.allowOrigin = some o ↔
        (o = r.origin ∧ r.origin ≠ [] ∧ SiteAllowed lib.http.url patterns r.host r.origin) := by
  have key : ∀ allow, (storeHttp lib auth url service allow r).2.csp = uploadCsp ∧
      (storeHttp lib auth url service allow r).2.allowOrigin = allow := by
    intro allow
    rcases sent_inv (lib := lib) (auth := auth) (url := url) (service := service) (allow := allow) (r := r) with
      ⟨_, _, _, _, h5, h6⟩ | ⟨_, u, t, o, _, _, _, _, hs⟩
    · exact ⟨h5, h6⟩
    · rw [hs]
      dsimp only
      split
      · split <;> exact ⟨rfl, rfl⟩
      all_goals exact ⟨rfl, rfl⟩
  unfold serveHttp
  rcases cors_iff hl hp r.host r.origin with ⟨h0, h⟩ | ⟨h0, h1, h⟩ | ⟨h0, h1, h⟩
  · rw [h]
    dsimp only
    have fin : ∀ (resp : HttpResp), resp.allowOrigin = none →
        ∀ o, resp.allowOrigin = some o ↔ (o = r.origin ∧ r.origin ≠ [] ∧ SiteAllowed lib.http.url patterns r.host r.origin) := by
      intro resp hr o
      rw [hr]
      exact ⟨(fun e => nomatch e), fun e => absurd h0 e.2.1⟩
    repeat' split
    · exact ⟨_, _, rfl, rfl, fin _ rfl⟩
    · exact ⟨_, _, rfl, rfl, fin _ rfl⟩
    · exact ⟨_, _, rfl, (key none).1, fin _ (key none).2⟩
    · exact ⟨_, _, rfl, rfl, fin _ rfl⟩
  · rw [h]
    dsimp only
    have fin : ∀ (resp : HttpResp), resp.allowOrigin = some r.origin →
        ∀ o, resp.allowOrigin = some o ↔ (o = r.origin ∧ r.origin ≠ [] ∧ SiteAllowed lib.http.url patterns r.host r.origin) := by
      intro resp hr o
      rw [hr]
      exact ⟨fun e => ⟨(Option.some.inj e).symm, h0, h1⟩, fun e => by rw [e.1]⟩
    repeat' split
    · exact ⟨_, _, rfl, rfl, fin _ rfl⟩
    · exact ⟨_, _, rfl, rfl, fin _ rfl⟩
    · exact ⟨_, _, rfl, (key _).1, fin _ (key _).2⟩
    · exact ⟨_, _, rfl, rfl, fin _ rfl⟩
  · rw [h]
    dsimp only
    exact ⟨_, _, rfl, rfl, fun o => ⟨(fun e => nomatch e), fun e => absurd e.2.2 h1⟩⟩

/-! ## Cases -/

/-- A library for the cases. -/
def storeLibEx : StoreLib :=
  { http := httpLibEx, disposition := fun n => b!"attachment; filename=" ++ n, resolve := some }

/-- A service that keeps complete uploads of everyone but bob. -/
def storeSvcEx (req : StoreReq) : Except StoreErr StoreResp :=
  if req.username = b!"bob" then .ok ⟨507, [], b!"text/plain", b!"quota"⟩
  else if req.body.complete then .ok ⟨201, b!"https://files.example/1", [], []⟩
  else .error .other

/-- An upload of alice's is sent to the service with its name, and the client gets the location; the picture of a page of
another site is refused before; an upload that breaks off fails. -/
example :
    serveHttp storeLibEx upAuthEx [] b!"http://localhost/up" storeSvcEx { httpReqEx with origin := [] } =
      some ([⟨b!"http://localhost/up", some b!"attachment; filename=pic.png", none, b!"alice", ⟨b!"data", true⟩⟩],
        { bareResp 201 none with location := some b!"https://files.example/1" }) ∧
    serveHttp storeLibEx upAuthEx [] b!"http://localhost/up" storeSvcEx httpReqEx = some ([], bareResp 403 none) ∧
    (serveHttp storeLibEx upAuthEx [] b!"http://localhost/up" storeSvcEx
      { httpReqEx with origin := [], body := ⟨b!"da", false⟩ }).map (·.2.status) = some 500 := by
  refine ⟨?_, ?_, ?_⟩ <;> decide +kernel

/-- The service of the cases meets the hypothesis of `C95_whole`. -/
example : ∀ req a, storeSvcEx req = .ok a → a.status = 201 → req.body.complete = true := by
  intro req a h hs
  unfold storeSvcEx at h
  split at h
  · cases h; cases hs
  · split at h
    · assumption
    · cases h

/-- The hypotheses of `C95_forwarded` are met by alice's upload. -/
example : ∃ req resp, serveHttp storeLibEx upAuthEx [] b!"http://localhost/up" storeSvcEx { httpReqEx with origin := [] } =
    some ([req], resp) ∧ req.username = b!"alice" :=
  C95_forwarded storeLibEx upAuthEx [] _ storeSvcEx _ (fun u p => u = b!"alice" ∧ p = b!"pw") b!"alice:pw" b!"alice" b!"pw"
    (by intro s h e; cases e; exact fun h => h) (by simp) (.inl rfl) rfl rfl rfl rfl (by decide +kernel) (by decide) rfl
    (by intro _; decide) (by decide)

end Verif.Props
