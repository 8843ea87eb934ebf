import Verif.Spec.UploadNames
import Verif.Props.Upload

/-! # C43, C44: the names of uploaded files, and their encodings -/

namespace Verif.Props
open Verif.Model Verif.Spec Verif.Proof

private theorem takeWhile_all {α : Type} {l : List α} {q : α → Bool} (h : ∀ a ∈ l, q a = true) : l.takeWhile q = l := by
  induction l with
  | nil => rfl
  | cons a l ih => rw [List.takeWhile_cons_of_pos (h a (by simp)), ih (fun b hb => h b (by simp [hb]))]

private theorem pathBase_plain {f : Str} (h0 : f ≠ []) (h : 47 ∉ f) : pathBase f = f := by
  unfold pathBase
  rw [if_neg h0]
  have h1 : f.reverse.dropWhile (fun c => decide (c = 47)) = f.reverse := by
    cases hr : f.reverse with
    | nil => rfl
    | cons a l =>
      have : a ∈ f := by rw [← List.mem_reverse, hr]; simp
      rw [List.dropWhile_cons_of_neg]
      simp; rintro rfl; exact h this
  dsimp only
  rw [h1, List.reverse_reverse, if_neg h0]
  rw [takeWhile_all]
  · exact List.reverse_reverse f
  · intro a ha
    simp; rintro rfl; exact h (List.mem_reverse.mp ha)

private theorem pathExt_plain {f : Str} (h : 47 ∉ f) : pathExt f = [] ↔ 46 ∉ f := by
  unfold pathExt
  have : f.reverse.takeWhile (fun c => decide (c ≠ 47)) = f.reverse := by
    apply takeWhile_all
    intro a ha
    simp; rintro rfl; exact h (List.mem_reverse.mp ha)
  dsimp only
  rw [this, List.reverse_reverse]
  by_cases h2 : 46 ∈ f
  · rw [if_pos h2]; simp [h2]
  · rw [if_neg h2]; simp [h2]

private theorem known_get (t : Str) : (GoMap.get primaryExts t = none ∧ t ∉ knownEndings.map (·.1)) ∨
    (∃ ext, GoMap.get primaryExts t = some ext ∧ (t, b!"." ++ ext) ∈ knownEndings) := by
  unfold primaryExts
  simp only [GoMap.get]
  by_cases h : t = b!"audio/aac"; · subst h; right; exact ⟨_, rfl, by decide⟩
  by_cases h2 : t = b!"audio/mp4"; · subst h2; right; exact ⟨_, rfl, by decide⟩
  by_cases h3 : t = b!"audio/mpeg"; · subst h3; right; exact ⟨_, rfl, by decide⟩
  by_cases h4 : t = b!"audio/ogg"; · subst h4; right; exact ⟨_, rfl, by decide⟩
  by_cases h5 : t = b!"image/jpeg"; · subst h5; right; exact ⟨_, rfl, by decide⟩
  by_cases h6 : t = b!"text/plain"; · subst h6; right; exact ⟨_, rfl, by decide⟩
  by_cases h7 : t = b!"video/mp4"; · subst h7; right; exact ⟨_, rfl, by decide⟩
  left
  constructor
  · rw [if_neg (fun e => h e.symm), if_neg (fun e => h2 e.symm), if_neg (fun e => h3 e.symm), if_neg (fun e => h4 e.symm),
      if_neg (fun e => h5 e.symm), if_neg (fun e => h6 e.symm), if_neg (fun e => h7 e.symm)]
  · simp only [knownEndings, List.map_cons, List.map_nil, List.mem_cons, List.not_mem_nil, or_false]
    rintro (e | e | e | e | e | e | e)
    · exact h e
    · exact h2 e
    · exact h3 e
    · exact h4 e
    · exact h5 e
    · exact h6 e
    · exact h7 e

private theorem ending_of {lib : UpLib} {ct mime : Str} (h : upMime lib ct = .ok mime) :
    ∃ e, EndingFor lib ct e ∧ ∀ orig, upSuffix lib mime orig = if pathExt orig = [] then e else [] := by
  unfold upMime at h
  by_cases hct : ct = []
  · rw [if_pos hct] at h
    cases h
    refine ⟨[], by unfold EndingFor; rw [if_pos hct], ?_⟩
    intro orig; unfold upSuffix; simp
  · rw [if_neg hct] at h
    cases hp : lib.parseMedia ct with
    | none => rw [hp] at h; cases h
    | some tp =>
      obtain ⟨t, params⟩ := tp
      rw [hp] at h
      dsimp only at h
      split at h
      · simp only [Except.ok.injEq] at h
        unfold EndingFor
        by_cases ho : t = b!"application/octet-stream"
        · rw [if_pos ho] at h; subst h
          refine ⟨[], by rw [if_neg hct]; exact ⟨t, params, hp, .inl ⟨.inr ho, rfl⟩⟩, ?_⟩
          intro orig; unfold upSuffix; simp
        · rw [if_neg ho] at h; subst h
          by_cases h0 : t = []
          · refine ⟨[], by rw [if_neg hct]; exact ⟨t, params, hp, .inl ⟨.inl h0, rfl⟩⟩, ?_⟩
            intro orig; unfold upSuffix; simp [h0]
          · have hs : ∀ orig, upSuffix lib t orig = if pathExt orig = [] then
                (match GoMap.get primaryExts t with
                  | some ext => b!"." ++ ext
                  | none => match lib.exts t with
                    | [ext] => ext
                    | _ => []) else [] := by
              intro orig
              unfold upSuffix
              by_cases hx : pathExt orig = []
              · rw [if_pos ⟨hx, h0⟩, if_pos hx]
                rfl
              · rw [if_neg (fun e => hx e.1), if_neg hx]
            refine ⟨_, ?_, hs⟩
            rw [if_neg hct]
            refine ⟨t, params, hp, ?_⟩
            rcases known_get t with ⟨hk, hk2⟩ | ⟨ext, hk, hk2⟩
            · rw [hk]
              dsimp only
              right; right
              split
              · rename_i ext he
                exact .inl ⟨h0, ho, hk2, he⟩
              · rename_i he
                exact .inr ⟨ho, hk2, fun e h => he e h, rfl⟩
            · rw [hk]
              exact .inr (.inl ⟨ho, hk2⟩)
      · cases h

/-- An uploaded file is named after a random token and the name the client gives it; it gets the ending for its type if the
name has none. -/
theorem C43_named (lib : UpLib) (auth : UpAuth) (cwd : List Str) (root : Str) (fs : UpFs)
    (tok : Nat → Nat → Str) (req : UpRequest) (hl : PlainExts lib) (htok : HexTokens tok)
    (hu : ∀ u, UpAccepted lib auth req.authorization u → PlainName u) (hflat : FlatDirs cwd root fs)
    (p : List Str) (h : (upHandle lib auth cwd root fs tok req).2 = .created p) :
    ∃ u name ending i n, UpAccepted lib auth req.authorization u ∧ p = resolve cwd root ++ [u, name] ∧
      EndingFor lib req.contentType ending ∧ (n = 4 ∨ n = 8) ∧
      (req.contentDisposition = [] → n = 8 ∧ name = tok i n ++ ending) ∧
      (∀ t params f, req.contentDisposition ≠ [] → lib.parseMedia req.contentDisposition = some (t, params) →
        GoMap.get params b!"filename" = some f → f ≠ [] → 47 ∉ f →
        name = tok i n ++ b!"-" ++ f ++ if 46 ∈ f then [] else ending) := by
  rcases (upHandle_effect (auth := auth) (req := req) hl htok hu hflat).2 with
    ⟨_, he⟩ | ⟨u, name, g1, _, _, _, _, _, _, _, g7, _, orig, mime, i, g9, g10, _, g12⟩
  · exact absurd h (he p)
  · obtain ⟨e, he1, he2⟩ := ending_of g12
    refine ⟨u, name, e, i, if orig ≠ [] ∧ i = 0 then 4 else 8, g1, (g7 p h).1, he1, ?_, ?_, ?_⟩
    · split <;> simp
    · intro hd
      unfold upBasename at g9
      rw [if_pos hd] at g9
      cases g9
      rw [if_neg (fun e => e.1 rfl)]
      refine ⟨rfl, ?_⟩
      rw [g10 (by simp), he2]
      simp [upName, pathExt]
    · intro t params f hd hp hf h0 hs
      unfold upBasename at g9
      rw [if_neg hd, hp] at g9
      simp only [hf, Option.getD_some, Option.some.injEq] at g9
      rw [pathBase_plain h0 hs] at g9
      subst g9
      rw [g10 (by rintro rfl; simp at hs), he2]
      unfold upName
      rw [if_pos h0]
      by_cases h46 : 46 ∈ f
      · rw [if_neg (fun e => (pathExt_plain hs).mp e h46), if_pos h46]; simp
      · rw [if_pos ((pathExt_plain hs).mpr h46), if_neg h46]; simp

/-- A file that is sent without a name, but with a disposition, is named by the token, a dash and a dot: it does not get the
ending for its type. -/
theorem C43_nameless (lib : UpLib) (auth : UpAuth) (cwd : List Str) (root : Str) (fs : UpFs)
    (tok : Nat → Nat → Str) (req : UpRequest) (hl : PlainExts lib) (htok : HexTokens tok)
    (hu : ∀ u, UpAccepted lib auth req.authorization u → PlainName u) (hflat : FlatDirs cwd root fs)
    (p : List Str) (h : (upHandle lib auth cwd root fs tok req).2 = .created p)
    (t : Str) (params : GoMap Str Str) (hd : req.contentDisposition ≠ [])
    (hp : lib.parseMedia req.contentDisposition = some (t, params)) (hn : GoMap.get params b!"filename" = none) :
    ∃ u i n, UpAccepted lib auth req.authorization u ∧ p = resolve cwd root ++ [u, tok i n ++ b!"-."] := by
  rcases (upHandle_effect (auth := auth) (req := req) hl htok hu hflat).2 with
    ⟨_, he⟩ | ⟨u, name, g1, _, _, _, _, _, _, _, g7, _, orig, mime, i, g9, g10, _, g12⟩
  · exact absurd h (he p)
  · obtain ⟨e, he1, he2⟩ := ending_of g12
    unfold upBasename at g9
    rw [if_neg hd, hp] at g9
    simp only [hn, Option.getD_none, Option.some.injEq] at g9
    have hb : pathBase [] = b!"." := rfl
    rw [hb] at g9
    subst g9
    refine ⟨u, i, if b!"." ≠ [] ∧ i = 0 then 4 else 8, g1, ?_⟩
    rw [(g7 p h).1, g10 (by decide), he2]
    have hx : ¬ pathExt b!"." = [] := by decide
    rw [if_neg hx]
    unfold upName
    rw [if_pos (by decide : (b!"." : Str) ≠ []), List.append_nil]
    rfl

/-- A text in an encoding that is not known is not stored. -/
theorem C44_charset (lib : UpLib) (auth : UpAuth) (cwd : List Str) (root : Str) (fs : UpFs)
    (tok : Nat → Nat → Str) (req : UpRequest) (h : StrangeCharset lib req.contentType) :
    (upHandle lib auth cwd root fs tok req).1 = fs ∧ ∀ p, (upHandle lib auth cwd root fs tok req).2 ≠ .created p := by
  obtain ⟨h0, t, params, cs, h1, h2, h3⟩ := h
  have hm : upMime lib req.contentType = .error .unsupported := by
    unfold upMime
    rw [if_neg h0, h1]
    dsimp only
    rw [h2, Option.getD_some, if_neg]
    simpa [asciiLower] using h3
  unfold upHandle
  by_cases ho : req.originOk = false
  · rw [if_pos ho]; exact ⟨rfl, fun p h => by cases h⟩
  rw [if_neg ho]
  by_cases hpo : req.post = false
  · rw [if_pos hpo]; exact ⟨rfl, fun p h => by cases h⟩
  rw [if_neg hpo]
  by_cases hpa : req.path ≠ b!"/uploads"
  · rw [if_pos hpa]; exact ⟨rfl, fun p h => by cases h⟩
  rw [if_neg hpa, hm]
  cases hau : upUser lib auth req.authorization with
  | ok u => exact ⟨rfl, fun p h => by cases h⟩
  | error e =>
    refine ⟨rfl, ?_⟩
    intro p h
    dsimp only at h
    subst h
    unfold upUser at hau
    dsimp only at hau
    repeat' split at hau
    all_goals first | cases hau

/-- A library for the examples: the type is all before a semicolon, and the text after it is the name and the encoding. -/
private def libN : UpLib :=
  { basicAuth := upLibEx.basicAuth,
    parseMedia := fun s => some ((cut 59 s).1, match (cut 59 s).2 with
      | none => []
      | some v => [(b!"filename", v), (b!"charset", v)]),
    exts := fun t => if t = b!"image/png" then [b!".png"] else [] }

/-- Files with a name, with a name that has no ending, without a name, and without a disposition. -/
example :
    (upHandle libN upAuthEx [] b!"/srv" ⟨[], [[], [b!"srv"]]⟩ upTokEx { upReqEx with contentDisposition := b!"a;x.gif", contentType := b!"image/png" }).2
      = .created [b!"srv", b!"alice", b!"beef0-x.gif"] ∧
    (upHandle libN upAuthEx [] b!"/srv" ⟨[], [[], [b!"srv"]]⟩ upTokEx { upReqEx with contentDisposition := b!"a;x", contentType := b!"image/png" }).2
      = .created [b!"srv", b!"alice", b!"beef0-x.png"] ∧
    (upHandle libN upAuthEx [] b!"/srv" ⟨[], [[], [b!"srv"]]⟩ upTokEx { upReqEx with contentDisposition := b!"a", contentType := b!"image/png" }).2
      = .created [b!"srv", b!"alice", b!"beef0-."] ∧
    (upHandle libN upAuthEx [] b!"/srv" ⟨[], [[], [b!"srv"]]⟩ upTokEx { upReqEx with contentDisposition := [], contentType := b!"text/plain;UTF-8" }).2
      = .created [b!"srv", b!"alice", b!"beef0.txt"] ∧
    StrangeCharset libN b!"text/plain;koi8-r" := by
  refine ⟨by decide +kernel, by decide +kernel, by decide +kernel, by decide +kernel, by simp, _, _, b!"koi8-r", rfl, rfl, by decide⟩

end Verif.Props
