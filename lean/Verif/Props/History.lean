import Verif.Model.History
import Verif.Props.MsgDb

/-! # C53, C64: history requests and searches -/

namespace Verif.Props
open Verif.Model Verif.Proof

/-! ## Specification -/

/-- A bound, `timestamp=…`, and the instant it denotes. -/
def IsBound (parse : Str → Option Int) (b : Str) (x : Int) : Prop :=
  ∃ s, b = b!"timestamp=" ++ s ∧ parse s = some x ∧ x ≠ 0

/-- An acceptable number of messages. -/
def IsLimit (s : Str) (n : Nat) : Prop := parseInt64 s = some (n : Int) ∧ n ≤ 1000

/-- A well formed request for messages of `target`: at most `n`, with instants `t` such that `asked t`. -/
def WellFormed (parse : Str → Option Int) (now : Int) (params : List Str) (target : Str) (n : Nat)
    (asked : Int → Prop) : Prop :=
  ∃ limit rest, IsLimit limit n ∧
    ((∃ b x, params = b!"BEFORE" :: target :: b :: limit :: rest ∧ IsBound parse b x ∧
        asked = fun t => toMillis t < toMillis x) ∨
     (∃ b x, params = b!"AFTER" :: target :: b :: limit :: rest ∧ IsBound parse b x ∧
        asked = fun t => toMillis x < toMillis t ∧ toMillis t < toMillis now) ∨
     (∃ b x, params = b!"LATEST" :: target :: b :: limit :: rest ∧ IsBound parse b x ∧
        asked = fun t => toMillis x < toMillis t ∧ toMillis t < toMillis now) ∨
     (params = b!"LATEST" :: target :: b!"*" :: limit :: rest ∧ asked = fun t => toMillis t < toMillis now) ∨
     (∃ a b x y, params = b!"BETWEEN" :: target :: a :: b :: limit :: rest ∧ IsBound parse a x ∧ IsBound parse b y ∧
        asked = fun t => (toMillis x < toMillis t ∧ toMillis t < toMillis y) ∨
          (toMillis y < toMillis t ∧ toMillis t < toMillis x)))

/-- A well formed request for the conversations whose latest message is between two instants. -/
def WellFormedTargets (parse : Str → Option Int) (params : List Str) (n : Nat) (asked : Int → Prop) : Prop :=
  ∃ a b limit rest x y, params = b!"TARGETS" :: a :: b :: limit :: rest ∧ IsLimit limit n ∧ IsBound parse a x ∧
    IsBound parse b y ∧ asked = fun t => (toMillis x < toMillis t ∧ toMillis t < toMillis y) ∨
          (toMillis y < toMillis t ∧ toMillis t < toMillis x)

/-- The clock and the parsed instants are between the years 0 and 9999. -/
def TimesOK (env : HistEnv) : Prop :=
  InYears env.now ∧ env.now ≠ 0 ∧ ∀ s x, env.parseTime s = some x → InYears x

/-- The property of the statement about malformed requests. -/
def MalformedRefused : Prop :=
  ∀ env params q, chatHistory env params = .query q →
    (∃ target n asked, WellFormed env.parseTime env.now params target n asked) ∨
    ∃ n asked, WellFormedTargets env.parseTime params n asked

/-! ## Proofs -/

private theorem bound_iff {parse : Str → Option Int} {b : Str} {x : Int} (hx : x ≠ 0) :
    parseChatHistoryBound parse b = x ↔ IsBound parse b x := by
  unfold parseChatHistoryBound IsBound
  constructor
  · intro h
    cases hc : cutStr b!"=" b with
    | none => rw [hc] at h; exact absurd h.symm hx
    | some kv =>
      obtain ⟨k, v⟩ := kv
      rw [hc] at h
      dsimp only at h
      by_cases hk : k = b!"timestamp"
      · rw [if_pos hk] at h
        refine ⟨v, ?_, ?_, hx⟩
        · rw [cutStr_some hc, hk]; rfl
        · cases hp : parse v with
          | none => rw [hp] at h; exact absurd h.symm hx
          | some y => rw [hp] at h; exact congrArg some h
      · rw [if_neg hk] at h; exact absurd h.symm hx
  · rintro ⟨s, rfl, hp, -⟩
    have : cutStr b!"=" (b!"timestamp=" ++ s) = some (b!"timestamp", s) := by
      have := cutStr_byte 61 b!"timestamp" s (by decide)
      simpa using this
    rw [this]
    simp [hp]

private theorem bound_unique {parse : Str → Option Int} {b : Str} {x y : Int} (h : IsBound parse b x)
    (h' : IsBound parse b y) : x = y := by
  have a := (bound_iff h.choose_spec.2.2).2 h
  have b := (bound_iff h'.choose_spec.2.2).2 h'
  rw [← a, ← b]

private theorem bound_nonempty {parse : Str → Option Int} {b : Str} {x : Int} (h : IsBound parse b x) : b ≠ [] ∧ b ≠ b!"*" := by
  obtain ⟨s, rfl, -⟩ := h
  constructor <;> simp

private theorem limit_iff (s : Str) :
    ¬ ((atoi s).2 = false ∨ (atoi s).1 < 0 ∨ (atoi s).1 > chatHistoryLimit) ↔ ∃ n, IsLimit s n ∧ (atoi s).1 = (n : Int) := by
  unfold chatHistoryLimit IsLimit
  have key : (atoi s).2 = true ↔ ∃ k, parseInt64 s = some k ∧ (atoi s).1 = k := by
    unfold atoi
    cases hp : parseInt64 s with
    | some k => simp
    | none =>
      dsimp only
      split <;> split <;> simp
  constructor
  · intro h
    have h2 : (atoi s).2 = true := by
      cases hb : (atoi s).2 with
      | true => rfl
      | false => exact absurd (Or.inl hb) h
    obtain ⟨k, k1, k2⟩ := key.1 h2
    refine ⟨k.toNat, ⟨?_, ?_⟩, ?_⟩
    · rw [k1]; congr 1; omega
    · omega
    · omega
  · rintro ⟨n, ⟨h1, h2⟩, h3⟩
    have := key.2 ⟨_, h1, h3⟩
    rw [this]
    simp
    omega

/-- What a call of the store tells about the parameters. -/
private theorem run_query {env : HistEnv} {sub target b0 b1 limit : Str} {q : HistQuery}
    (h : histRun env sub target b0 b1 limit = .query q) :
    ∃ net cm n, env.network = some (net, cm) ∧ IsLimit limit n ∧ env.hasStore = true ∧
      casemap env.cm target ≠ serviceNickCM ∧
      ∃ t0 t1, ((sub = b!"LATEST" ∧ b0 = b!"*" ∧ t0 = 0) ∨ IsBound env.parseTime b0 t0) ∧
        ((b1 = [] ∧ t1 = 0) ∨ IsBound env.parseTime b1 t1) ∧ q = histQuery env sub net (casemap cm target) t0 t1 n := by
  unfold histRun at h
  by_cases h1 : casemap env.cm target = serviceNickCM
  · rw [if_pos h1] at h; cases h
  rw [if_neg h1] at h
  by_cases h2 : env.hasStore = false
  · rw [if_pos h2] at h; cases h
  rw [if_neg h2] at h
  cases hn : env.network with
  | none => rw [hn] at h; cases h
  | some nc =>
    obtain ⟨net, cm⟩ := nc
    rw [hn] at h
    dsimp only at h
    refine ⟨net, cm, ?_⟩
    generalize ht0 : (if sub = b!"LATEST" ∧ b0 = b!"*" then (0 : Int) else parseChatHistoryBound env.parseTime b0) = t0 at h
    generalize ht1 : (if b1 ≠ [] then parseChatHistoryBound env.parseTime b1 else (0 : Int)) = t1 at h
    split at h
    · cases h
    rename_i h3
    split at h
    · cases h
    rename_i h4
    split at h
    · cases h
    rename_i h5
    injection h with h
    obtain ⟨n, n1, n2⟩ := (limit_iff limit).1 h5
    refine ⟨n, rfl, n1, by simpa using h2, h1, t0, t1, ?_, ?_, ?_⟩
    · by_cases hs : sub = b!"LATEST" ∧ b0 = b!"*"
      · rw [if_pos hs] at ht0
        exact Or.inl ⟨hs.1, hs.2, ht0.symm⟩
      · rw [if_neg hs] at ht0
        right
        have : t0 ≠ 0 := fun e => h3 ⟨hs, e⟩
        exact (bound_iff this).1 ht0
    · by_cases hb : b1 = []
      · rw [if_neg (by simpa using hb)] at ht1
        exact Or.inl ⟨hb, ht1.symm⟩
      · rw [if_pos hb] at ht1
        right
        have : t1 ≠ 0 := fun e => h4 ⟨hb, e⟩
        exact (bound_iff this).1 ht1
    · rw [← h, n2]; rfl

/-- The other way round. -/
private theorem run_ok {env : HistEnv} {sub target b0 b1 limit : Str} {net n : Nat} {cm : CaseMapping} {t0 t1 : Int}
    (hn : env.network = some (net, cm)) (hst : env.hasStore = true) (ht : casemap env.cm target ≠ serviceNickCM)
    (hl : IsLimit limit n) (h0 : (sub = b!"LATEST" ∧ b0 = b!"*" ∧ t0 = 0) ∨ IsBound env.parseTime b0 t0)
    (h1 : (b1 = [] ∧ t1 = 0) ∨ IsBound env.parseTime b1 t1) :
    histRun env sub target b0 b1 limit = .query (histQuery env sub net (casemap cm target) t0 t1 n) := by
  unfold histRun
  rw [if_neg ht, if_neg (by simp [hst]), hn]
  dsimp only
  have e0 : (if sub = b!"LATEST" ∧ b0 = b!"*" then (0 : Int) else parseChatHistoryBound env.parseTime b0) = t0 ∧
      ¬ (¬ (sub = b!"LATEST" ∧ b0 = b!"*") ∧ t0 = 0) := by
    rcases h0 with ⟨a, b, c⟩ | h0
    · exact ⟨by rw [if_pos ⟨a, b⟩, c], fun h => h.1 ⟨a, b⟩⟩
    · have hz := h0.choose_spec.2.2
      refine ⟨?_, fun h => hz h.2⟩
      rw [if_neg (fun h => (bound_nonempty h0).2 h.2)]
      exact (bound_iff hz).2 h0
  have e1 : (if b1 ≠ [] then parseChatHistoryBound env.parseTime b1 else (0 : Int)) = t1 ∧ ¬ (b1 ≠ [] ∧ t1 = 0) := by
    rcases h1 with ⟨a, b⟩ | h1
    · exact ⟨by rw [if_neg (by simpa using a), b], fun h => h.1 a⟩
    · have hz := h1.choose_spec.2.2
      refine ⟨?_, fun h => hz h.2⟩
      rw [if_pos (bound_nonempty h1).1]
      exact (bound_iff hz).2 h1
  rw [e0.1, if_neg e0.2, e1.1, if_neg e1.2]
  have hlim : ¬ ((atoi limit).2 = false ∨ (atoi limit).1 < 0 ∨ (atoi limit).1 > chatHistoryLimit) ∧ (atoi limit).1 = (n : Int) := by
    have : atoi limit = ((n : Int), true) := by unfold atoi; rw [hl.1]
    have hle := hl.2
    rw [this]
    refine ⟨?_, rfl⟩
    unfold chatHistoryLimit
    dsimp only
    simp
    omega
  rw [if_neg hlim.1, hlim.2]
  rfl

/-- The kinds of requests. -/
private theorem sub_cases {env : HistEnv} {params : List Str} {q : HistQuery} (h : chatHistory env params = .query q) :
    (∃ sub target b limit rest, (sub = b!"AFTER" ∨ sub = b!"BEFORE" ∨ sub = b!"LATEST") ∧
      params = sub :: target :: b :: limit :: rest ∧ histRun env sub target b [] limit = .query q) ∨
    (∃ target a b limit rest, params = b!"BETWEEN" :: target :: a :: b :: limit :: rest ∧
      histRun env b!"BETWEEN" target a b limit = .query q) ∨
    (∃ a b limit rest, params = b!"TARGETS" :: a :: b :: limit :: rest ∧
      histRun env b!"TARGETS" [] a b limit = .query q) := by
  unfold chatHistory at h
  match params, h with
  | [], h => cases h
  | sub :: args, h =>
    dsimp only at h
    by_cases h1 : sub = b!"AFTER" ∨ sub = b!"BEFORE" ∨ sub = b!"LATEST"
    · rw [if_pos h1] at h
      match args, h with
      | [], h => cases h
      | [_], h => cases h
      | [_, _], h => cases h
      | target :: b :: limit :: rest, h => exact Or.inl ⟨sub, target, b, limit, rest, h1, rfl, h⟩
    · rw [if_neg h1] at h
      by_cases h2 : sub = b!"BETWEEN"
      · rw [if_pos h2] at h
        match args, h with
        | [], h => cases h
        | [_], h => cases h
        | [_, _], h => cases h
        | [_, _, _], h => cases h
        | target :: a :: b :: limit :: rest, h =>
          subst h2
          exact Or.inr (Or.inl ⟨target, a, b, limit, rest, rfl, h⟩)
      · rw [if_neg h2] at h
        by_cases h3 : sub = b!"TARGETS"
        · rw [if_pos h3] at h
          by_cases h4 : env.network = none
          · rw [if_pos h4] at h; cases h
          · rw [if_neg h4] at h
            match args, h with
            | [], h => cases h
            | [_], h => cases h
            | [_, _], h => cases h
            | a :: b :: limit :: rest, h =>
              subst h3
              exact Or.inr (Or.inr ⟨a, b, limit, rest, rfl, h⟩)
        · rw [if_neg h3] at h; cases h

/-- C53: unless one of its parameters is empty, a request that reaches the message store is well formed: a known
kind, bounds that are instants, a limit between zero and the limit of the server.  Missing: a request with an empty
second bound reaches the store (`C53_violated`). -/
theorem C53_refused_partial (env : HistEnv) (params : List Str) (q : HistQuery) (hne : [] ∉ params)
    (h : chatHistory env params = .query q) :
    (∃ target n asked, WellFormed env.parseTime env.now params target n asked) ∨
    ∃ n asked, WellFormedTargets env.parseTime params n asked := by
  rcases sub_cases h with ⟨sub, target, b, limit, rest, hs, rfl, hr⟩ | ⟨target, a, b, limit, rest, rfl, hr⟩ |
    ⟨a, b, limit, rest, rfl, hr⟩
  · obtain ⟨net, cm, n, -, hl, -, -, t0, t1, h0, -, -⟩ := run_query hr
    left
    rcases h0 with ⟨rfl, rfl, -⟩ | h0
    · exact ⟨target, n, _, limit, rest, hl, Or.inr (Or.inr (Or.inr (Or.inl ⟨rfl, rfl⟩)))⟩
    · rcases hs with rfl | rfl | rfl
      · exact ⟨target, n, _, limit, rest, hl, Or.inr (Or.inl ⟨b, t0, rfl, h0, rfl⟩)⟩
      · exact ⟨target, n, _, limit, rest, hl, Or.inl ⟨b, t0, rfl, h0, rfl⟩⟩
      · exact ⟨target, n, _, limit, rest, hl, Or.inr (Or.inr (Or.inl ⟨b, t0, rfl, h0, rfl⟩))⟩
  · obtain ⟨net, cm, n, -, hl, -, -, t0, t1, h0, h1, -⟩ := run_query hr
    left
    rcases h0 with ⟨he, -⟩ | h0
    · exact absurd he (by decide)
    · rcases h1 with ⟨rfl, -⟩ | h1
      · exact absurd (by simp) hne
      · exact ⟨target, n, _, limit, rest, hl, Or.inr (Or.inr (Or.inr (Or.inr ⟨a, b, t0, t1, rfl, h0, h1, rfl⟩)))⟩
  · obtain ⟨net, cm, n, -, hl, -, -, t0, t1, h0, h1, -⟩ := run_query hr
    right
    rcases h0 with ⟨he, -⟩ | h0
    · exact absurd he (by decide)
    · rcases h1 with ⟨rfl, -⟩ | h1
      · exact absurd (by simp) hne
      · exact ⟨n, _, a, b, limit, rest, t0, t1, rfl, hl, h0, h1, rfl⟩

/-- A connection for the examples; its clock shows the first second of 2020. -/
def histEnvEx : HistEnv :=
  { network := some (1, .rfc1459), cm := .rfc1459, hasStore := true, events := false,
    now := 63713433600000000000, parseTime := sqliteParse }

/-- C53: a request with an empty second bound is answered as if there were no second bound. -/
theorem C53_violated : ¬ MalformedRefused := by
  intro h
  have := h histEnvEx [b!"BETWEEN", b!"#c", b!"timestamp=2019-01-01T00:00:00.000Z", [], b!"10"]
    (.before 1 b!"#c" 63681897600000000000 0 10 false) (by decide +kernel)
  rcases this with ⟨target, n, asked, limit, rest, hl, hw⟩ | ⟨n, asked, a, b, limit, rest, x, y, hp, -⟩
  · rcases hw with ⟨b, x, hp, -⟩ | ⟨b, x, hp, -⟩ | ⟨b, x, hp, -⟩ | ⟨hp, -⟩ | ⟨a, b, x, y, hp, ha, hb, -⟩
    · simp at hp
    · simp at hp
    · simp at hp
    · simp at hp
    · simp at hp
      obtain ⟨s, hs, -⟩ := hb
      rw [hp.2.2.1] at hs
      simp at hs
  · simp at hp

private theorem zipIdx_nodup {α : Type} (l : List α) (k : Nat) : (l.zipIdx k).Nodup :=
  nodup_of_map (f := Prod.snd) (by rw [List.zipIdx_map_snd]; exact List.nodup_range')

/-- C53: a well formed request for messages is answered, with exactly the messages asked for: those of the
conversation with an instant in the interval, `n` at most, the last ones before an instant and the first ones after
one. -/
theorem C53_messages (env : HistEnv) (fts : Str → Option Str → Bool) (ord : Bool → List MsgRow → List MsgRow)
    (hord : OrdOK ord) (h : List Stored) (hok : StoredOK h) (ht : TimesOK env) (params : List Str) (target : Str)
    (n : Nat) (asked : Int → Prop) (net : Nat) (cm : CaseMapping)
    (hw : WellFormed env.parseTime env.now params target n asked)
    (hnet : env.network = some (net, cm)) (hst : env.hasStore = true) (hsv : casemap env.cm target ≠ serviceNickCM) :
    ∃ q all last win, chatHistory env params = .query q ∧ histMessages fts ord (dbOf h) q = win.map (·.1.m.raw) ∧
      IsWindow keyOf all n last win ∧ win.length ≤ 1000 ∧ all.Nodup ∧
      (∀ p, p ∈ all ↔ p ∈ h.zipIdx 1 ∧ InConv net (casemap cm target) env.events p ∧ asked p.1.m.t) ∧
      (params.head? = some b!"AFTER" → last = false) ∧
      (params.head? = some b!"BEFORE" ∨ params.head? = some b!"LATEST" → last = true) := by
  obtain ⟨tn, tn0, tp⟩ := ht
  have zy : InYears 0 := by unfold InYears dayNanos; omega
  have nd : ∀ f : Stored × Nat → Bool, ((h.zipIdx 1).filter f).Nodup := fun f => (zipIdx_nodup h 1).sublist List.filter_sublist
  have winlen : ∀ {all : List (Stored × Nat)} {last win}, IsWindow keyOf all n last win → n ≤ 1000 → win.length ≤ 1000 := by
    rintro all last win ⟨rest, -, hlen, -⟩ hn
    omega
  have by_ : ∀ {b x}, IsBound env.parseTime b x → InYears x ∧ x ≠ 0 := by
    rintro b x ⟨s, -, hp, hx⟩
    exact ⟨tp s x hp, hx⟩
  obtain ⟨limit, rest, hl, hw⟩ := hw
  rcases hw with ⟨b, x, rfl, hb, rfl⟩ | ⟨b, x, rfl, hb, rfl⟩ | ⟨b, x, rfl, hb, rfl⟩ | ⟨rfl, rfl⟩ |
    ⟨a, b, x, y, rfl, ha, hb, rfl⟩
  · have hr := run_ok (sub := b!"BEFORE") (b1 := []) (t1 := 0) hnet hst hsv hl (Or.inr hb) (Or.inl ⟨rfl, rfl⟩)
    obtain ⟨win, w1, w2⟩ := C35_before fts ord hord h hok net (casemap cm target) x 0 n env.events (by_ hb).1 zy
    refine ⟨.before net (casemap cm target) x 0 n env.events, _, true, win, ?_, w1, w2, winlen w2 hl.2, nd _, ?_, by simp, by simp⟩
    · unfold chatHistory
      dsimp only
      rw [if_pos (Or.inr (Or.inl rfl)), hr]
      rfl
    · intro p
      simp only [List.mem_filter, decide_eq_true_eq]
      unfold Before After
      simp [(by_ hb).2]
  · have hr := run_ok (sub := b!"AFTER") (b1 := []) (t1 := 0) hnet hst hsv hl (Or.inr hb) (Or.inl ⟨rfl, rfl⟩)
    obtain ⟨win, w1, w2⟩ := C35_after fts ord hord h hok net (casemap cm target) x env.now n env.events (by_ hb).1 tn
    refine ⟨.after net (casemap cm target) x env.now n env.events, _, false, win, ?_, w1, w2, winlen w2 hl.2, nd _, ?_, by simp, by simp⟩
    · unfold chatHistory
      dsimp only
      rw [if_pos (Or.inl rfl), hr]
      rfl
    · intro p
      simp only [List.mem_filter, decide_eq_true_eq]
      unfold Before After
      simp [(by_ hb).2, tn0]
  · have hr := run_ok (sub := b!"LATEST") (b1 := []) (t1 := 0) hnet hst hsv hl (Or.inr hb) (Or.inl ⟨rfl, rfl⟩)
    obtain ⟨win, w1, w2⟩ := C35_before fts ord hord h hok net (casemap cm target) env.now x n env.events tn (by_ hb).1
    refine ⟨.before net (casemap cm target) env.now x n env.events, _, true, win, ?_, w1, w2, winlen w2 hl.2, nd _, ?_, by simp, by simp⟩
    · unfold chatHistory
      dsimp only
      rw [if_pos (Or.inr (Or.inr rfl)), hr]
      rfl
    · intro p
      simp only [List.mem_filter, decide_eq_true_eq]
      unfold Before After
      simp only [(by_ hb).2, tn0, false_or]
      constructor
      · rintro ⟨a, b, c, d⟩; exact ⟨a, b, d, c⟩
      · rintro ⟨a, b, c, d⟩; exact ⟨a, b, d, c⟩
  · have hr := run_ok (sub := b!"LATEST") (b0 := b!"*") (t0 := 0) (b1 := []) (t1 := 0) hnet hst hsv hl
      (Or.inl ⟨rfl, rfl, rfl⟩) (Or.inl ⟨rfl, rfl⟩)
    obtain ⟨win, w1, w2⟩ := C35_before fts ord hord h hok net (casemap cm target) env.now 0 n env.events tn zy
    refine ⟨.before net (casemap cm target) env.now 0 n env.events, _, true, win, ?_, w1, w2, winlen w2 hl.2, nd _, ?_, by simp, by simp⟩
    · unfold chatHistory
      dsimp only
      rw [if_pos (Or.inr (Or.inr rfl)), hr]
      rfl
    · intro p
      simp only [List.mem_filter, decide_eq_true_eq]
      unfold Before After
      simp [tn0]
  · have hr := run_ok (sub := b!"BETWEEN") hnet hst hsv hl (Or.inr ha) (Or.inr hb)
    have hq : chatHistory env (b!"BETWEEN" :: target :: a :: b :: limit :: rest) =
        .query (if x < y then .after net (casemap cm target) x y n env.events else .before net (casemap cm target) x y n env.events) := by
      unfold chatHistory
      dsimp only
      rw [if_neg (by decide), if_pos rfl, hr]
      rfl
    have hm : ∀ {u v : Int}, u ≤ v → toMillis u ≤ toMillis v := by intro u v; unfold toMillis; omega
    by_cases hxy : x < y
    · rw [if_pos hxy] at hq
      obtain ⟨win, w1, w2⟩ := C35_after fts ord hord h hok net (casemap cm target) x y n env.events (by_ ha).1 (by_ hb).1
      refine ⟨_, _, false, win, hq, w1, w2, winlen w2 hl.2, nd _, ?_, by simp, by simp⟩
      intro p
      simp only [List.mem_filter, decide_eq_true_eq]
      unfold Before After
      simp only [(by_ ha).2, (by_ hb).2, false_or]
      have := hm (Int.le_of_lt hxy)
      constructor
      · rintro ⟨a, b, c⟩; exact ⟨a, b, Or.inl c⟩
      · rintro ⟨a, b, c⟩; exact ⟨a, b, by omega⟩
    · rw [if_neg hxy] at hq
      obtain ⟨win, w1, w2⟩ := C35_before fts ord hord h hok net (casemap cm target) x y n env.events (by_ ha).1 (by_ hb).1
      refine ⟨_, _, true, win, hq, w1, w2, winlen w2 hl.2, nd _, ?_, by simp, by simp⟩
      intro p
      simp only [List.mem_filter, decide_eq_true_eq]
      unfold Before After
      simp only [(by_ ha).2, (by_ hb).2, false_or]
      have := hm (Int.not_lt.1 hxy)
      constructor
      · rintro ⟨a, b, c⟩; exact ⟨a, b, by omega⟩
      · rintro ⟨a, b, c⟩; exact ⟨a, b, by omega⟩

/-- C53: a well formed request for conversations is answered with conversations whose latest message is in the
interval, each with that instant and at most once, `n` at most, leaving out the detached channels. -/
theorem C53_targets (env : HistEnv) (ord : Bool → List MsgRow → List MsgRow) (hord : OrdOK ord)
    (ordT : Bool → List (Str × Option Str) → List (Str × Option Str)) (hordT : OrdTOK ordT)
    (h : List Stored) (hok : StoredOK h) (ht : TimesOK env) (detached : Str → Bool) (params : List Str)
    (n : Nat) (asked : Int → Prop) (net : Nat) (cm : CaseMapping)
    (hw : WellFormedTargets env.parseTime params n asked)
    (hnet : env.network = some (net, cm)) (hst : env.hasStore = true) :
    ∃ q all last win, chatHistory env params = .query q ∧
      histTargets ord ordT (dbOf h) detached q =
        (win.filter (fun p => !detached p.1)).map (fun p => (p.1, some p.2)) ∧
      IsWindow (·.2) all n last win ∧ win.length ≤ 1000 ∧ (all.map (·.1)).Nodup ∧
      ∀ name t, (name, t) ∈ all ↔ IsLatest h net env.events name t ∧ asked t := by
  obtain ⟨tn, tn0, tp⟩ := ht
  obtain ⟨a, b, limit, rest, x, y, rfl, hl, ha, hb, rfl⟩ := hw
  have by_ : ∀ {b x}, IsBound env.parseTime b x → InYears x ∧ x ≠ 0 := by
    rintro b x ⟨s, -, hp, hx⟩
    exact ⟨tp s x hp, hx⟩
  have hsv : casemap env.cm [] ≠ serviceNickCM := by cases env.cm <;> decide
  have hr := run_ok (sub := b!"TARGETS") hnet hst hsv hl (Or.inr ha) (Or.inr hb)
  have hq : chatHistory env (b!"TARGETS" :: a :: b :: limit :: rest) = .query (.targets net x y n env.events) := by
    unfold chatHistory
    dsimp only
    rw [if_neg (by decide), if_neg (by decide), if_pos rfl, if_neg (by simp [hnet]), hr]
    rfl
  have hm : ∀ {u v : Int}, u ≤ v → toMillis u ≤ toMillis v := by intro u v; unfold toMillis; omega
  have hmap : ∀ win : List (Str × Int), ((win.map (fun p => (p.1, some p.2))).filter (fun p : Str × Option Int => !detached p.1)) =
      (win.filter (fun p => !detached p.1)).map (fun p => (p.1, some p.2)) := by
    intro win
    rw [List.filter_map]
    rfl
  by_cases hxy : x < y
  · have hd : dbListTargets x y n env.events = { afterTime := x, beforeTime := y, limit := n, events := env.events } := by
      unfold dbListTargets; rw [if_pos hxy]
    obtain ⟨all, win, d1, d2, d3, d4⟩ := C35_targets ord hord ordT hordT h hok net
      { afterTime := x, beforeTime := y, limit := n, events := env.events } (by_ ha).1 (by_ hb).1 (Or.inl (by_ ha).2)
    refine ⟨_, all, _, win, hq, ?_, d3, ?_, d1, ?_⟩
    · unfold histTargets
      dsimp only
      rw [hd, d4, hmap]
    · obtain ⟨_, _, hlen, _⟩ := d3
      have := hl.2
      simp only at hlen
      omega
    · intro name t
      rw [d2 name t]
      unfold Before After
      simp only [(by_ ha).2, (by_ hb).2, false_or]
      have := hm (Int.le_of_lt hxy)
      constructor
      · rintro ⟨a, b, c⟩; exact ⟨a, Or.inl ⟨b, c⟩⟩
      · rintro ⟨a, b⟩; exact ⟨a, by omega, by omega⟩
  · have hd : dbListTargets x y n env.events =
        { afterTime := y, beforeTime := x, limit := n, events := env.events, takeLast := true } := by
      unfold dbListTargets; rw [if_neg hxy]
    obtain ⟨all, win, d1, d2, d3, d4⟩ := C35_targets ord hord ordT hordT h hok net
      { afterTime := y, beforeTime := x, limit := n, events := env.events, takeLast := true } (by_ hb).1 (by_ ha).1
      (Or.inl (by_ hb).2)
    refine ⟨_, all, _, win, hq, ?_, d3, ?_, d1, ?_⟩
    · unfold histTargets
      dsimp only
      rw [hd, d4, hmap]
    · obtain ⟨_, _, hlen, _⟩ := d3
      have := hl.2
      simp only at hlen
      omega
    · intro name t
      rw [d2 name t]
      unfold Before After
      simp only [(by_ ha).2, (by_ hb).2, false_or]
      have := hm (Int.not_lt.1 hxy)
      constructor
      · rintro ⟨a, b, c⟩; exact ⟨a, Or.inr ⟨b, c⟩⟩
      · rintro ⟨a, b⟩; exact ⟨a, by omega, by omega⟩

/-- C53: whatever the request and the connection, a call of the store never asks for more than the limit of the
server, and always on behalf of the network of the connection. -/
theorem C53_limit (env : HistEnv) (params : List Str) (q : HistQuery) (h : chatHistory env params = .query q) :
    ∃ net cm limit, env.network = some (net, cm) ∧ limit ≤ 1000 ∧
      ((∃ e s t, q = .before net e s t limit env.events) ∨ (∃ e s t, q = .after net e s t limit env.events) ∨
        ∃ s t, q = .targets net s t limit env.events) := by
  have : ∃ sub target b0 b1 limit, histRun env sub target b0 b1 limit = .query q := by
    rcases sub_cases h with ⟨sub, target, b, limit, rest, hs, rfl, hr⟩ | ⟨target, a, b, limit, rest, rfl, hr⟩ |
      ⟨a, b, limit, rest, rfl, hr⟩ <;> exact ⟨_, _, _, _, _, hr⟩
  obtain ⟨sub, target, b0, b1, limit, hr⟩ := this
  obtain ⟨net, cm, n, hn, hl, -, -, t0, t1, -, -, rfl⟩ := run_query hr
  refine ⟨net, cm, n, hn, hl.2, ?_⟩
  unfold histQuery
  repeat' split
  all_goals first
    | exact Or.inl ⟨_, _, _, rfl⟩
    | exact Or.inr (Or.inl ⟨_, _, _, rfl⟩)
    | exact Or.inr (Or.inr ⟨_, _, rfl⟩)

/-! ## Searches -/

private theorem attr_step {env : HistEnv} {o o' : SearchOpts} {a : Str × Str} (h : searchAttr env o a = .inr o') :
    o'.start = (if a.1 = b!"after" then (env.parseTime a.2).getD 0 else o.start) ∧
    o'.stop = (if a.1 = b!"before" then (env.parseTime a.2).getD 0 else o.stop) ∧
    o'.sender = (if a.1 = b!"from" then a.2 else o.sender) ∧
    (o'.network, o'.conv) = (if a.1 = b!"in" then (env.network.map (·.1), casemap ((env.network.map (·.2)).getD .ascii) a.2)
      else (o.network, o.conv)) ∧
    o'.text = (if a.1 = b!"text" then a.2 else o.text) ∧
    o'.limit = (if a.1 = b!"limit" then (atoi a.2).1 else o.limit) ∧
    (a.1 = b!"after" ∨ a.1 = b!"before" → env.parseTime a.2 ≠ none) ∧
    (a.1 = b!"limit" → (atoi a.2).2 = true ∧ 0 < (atoi a.2).1) ∧
    (a.1 = b!"in" → env.network ≠ none) := by
  obtain ⟨k, v⟩ := a
  unfold searchAttr at h
  dsimp only at h ⊢
  by_cases h1 : k = b!"before"
  · subst h1
    rw [if_pos (Or.inl rfl)] at h
    cases hp : env.parseTime v with
    | none => rw [hp] at h; cases h
    | some t =>
      rw [hp] at h
      injection h with h
      subst h
      simp
  by_cases h2 : k = b!"after"
  · subst h2
    rw [if_pos (Or.inr rfl)] at h
    cases hp : env.parseTime v with
    | none => rw [hp] at h; cases h
    | some t =>
      rw [hp] at h
      injection h with h
      subst h
      simp
  rw [if_neg (by simp [h1, h2])] at h
  by_cases h3 : k = b!"from"
  · subst h3
    rw [if_pos rfl] at h
    injection h with h
    subst h
    simp
  rw [if_neg h3] at h
  by_cases h4 : k = b!"in"
  · subst h4
    rw [if_pos rfl] at h
    cases hn : env.network with
    | none => rw [hn] at h; cases h
    | some nc =>
      rw [hn] at h
      injection h with h
      subst h
      simp
  rw [if_neg h4] at h
  by_cases h5 : k = b!"text"
  · subst h5
    rw [if_pos rfl] at h
    injection h with h
    subst h
    simp
  rw [if_neg h5] at h
  by_cases h6 : k = b!"limit"
  · subst h6
    rw [if_pos rfl] at h
    split at h
    · cases h
    · rename_i hl
      injection h with h
      subst h
      have hl' : (atoi v).2 = true ∧ 0 < (atoi v).1 := by
        constructor
        · cases hb : (atoi v).2 with
          | true => rfl
          | false => exact absurd (Or.inl hb) hl
        · omega
      simp [hl']
  rw [if_neg h6] at h
  injection h with h
  subst h
  simp [h1, h2, h3, h4, h5, h6]

private theorem field_run {env : HistEnv} {α : Type} (f : SearchOpts → α) (k : Str) (g : Str → α)
    (hstep : ∀ o a o', searchAttr env o a = .inr o' → f o' = if a.1 = k then g a.2 else f o) :
    ∀ (l : List (Str × Str)) (o o' : SearchOpts), searchAttrs env o l = .inr o' → (l.map (·.1)).Nodup →
      (∀ v, (k, v) ∈ l → f o' = g v) ∧ ((∀ v, (k, v) ∉ l) → f o' = f o) := by
  intro l
  induction l with
  | nil =>
    intro o o' h _
    injection h with h
    subst h
    exact ⟨fun v hv => absurd hv List.not_mem_nil, fun _ => rfl⟩
  | cons a l ih =>
    intro o o' h nd
    rw [List.map_cons, List.nodup_cons] at nd
    unfold searchAttrs at h
    cases hs : searchAttr env o a with
    | inl e => rw [hs] at h; cases h
    | inr o1 =>
      rw [hs] at h
      obtain ⟨i1, i2⟩ := ih o1 o' h nd.2
      have hst := hstep o a o1 hs
      constructor
      · intro v hv
        rcases List.mem_cons.1 hv with rfl | hv
        · rw [i2 (fun w hw => nd.1 (List.mem_map.2 ⟨_, hw, rfl⟩)), hst, if_pos rfl]
        · exact i1 v hv
      · intro hno
        rw [i2 (fun v hv => hno v (by simp [hv])), hst, if_neg]
        intro he
        exact hno a.2 (by rw [← he]; simp)

private theorem valid_run {env : HistEnv} : ∀ (l : List (Str × Str)) (o o' : SearchOpts),
    searchAttrs env o l = .inr o' → ∀ a ∈ l, ∃ o1 o2, searchAttr env o1 a = .inr o2 := by
  intro l
  induction l with
  | nil => intro o o' _ a ha; cases ha
  | cons b l ih =>
    intro o o' h a ha
    unfold searchAttrs at h
    cases hs : searchAttr env o b with
    | inl e => rw [hs] at h; cases h
    | inr o1 =>
      rw [hs] at h
      rcases List.mem_cons.1 ha with rfl | ha
      · exact ⟨o, o1, hs⟩
      · exact ih o1 o' h a ha

/-- The number of messages a search asks for: the `limit` attribute, 100 at most and by default. -/
def SearchLimit (attrs : List (Str × Str)) (n : Nat) : Prop :=
  1 ≤ n ∧ n ≤ 100 ∧ (∀ v, (b!"limit", v) ∈ attrs → ∃ k : Nat, parseInt64 v = some (k : Int) ∧ n = min k 100) ∧
  ((∀ v, (b!"limit", v) ∉ attrs) → n = 100)

/-- Does a message of instant `t`, sender `sender` and text `text` meet the attributes of a search? -/
def Matches (parse : Str → Option Int) (fts : Str → Option Str → Bool) (attrs : List (Str × Str)) (t : Int)
    (sender : Str) (text : Option Str) : Prop :=
  (∀ v, (b!"after", v) ∈ attrs → ∃ x, parse v = some x ∧ After x t) ∧
  (∀ v, (b!"before", v) ∈ attrs → ∃ x, parse v = some x ∧ Before x t) ∧
  (∀ v, (b!"from", v) ∈ attrs → v = [] ∨ sender = v) ∧
  (∀ v, (b!"text", v) ∈ attrs → v = [] ∨ fts v text = true)

private theorem search_query {env : HistEnv} {attrs : List (Str × Str)} {net : Nat} {conv : Str} {o : MsgOptions}
    (h : search env attrs = .query net conv o) : ∃ s, searchAttrs env {} attrs = .inr s ∧ s.network = some net ∧
      conv = s.conv ∧ o = dbSearch s.start s.stop (if s.limit > 100 then 100 else s.limit).toNat s.sender s.text := by
  unfold search at h
  split at h
  · cases h
  · cases hs : searchAttrs env {} attrs with
    | inl e => rw [hs] at h; cases h
    | inr s =>
      rw [hs] at h
      dsimp only at h
      cases hn : s.network with
      | none => rw [hn] at h; cases h
      | some k =>
        rw [hn] at h
        injection h with h1 h2 h3
        exact ⟨s, rfl, by rw [hn, h1], h2.symm, h3.symm⟩

/-- C64: a search that reaches the store answers with exactly the text messages asked for: those of the conversation
that meet every attribute, the last ones up to the limit, which is never more than 100; every instant and number
given was well formed. -/
theorem C64_search (env : HistEnv) (fts : Str → Option Str → Bool) (ord : Bool → List MsgRow → List MsgRow)
    (hord : OrdOK ord) (h : List Stored) (hok : StoredOK h) (ht : ∀ s x, env.parseTime s = some x → InYears x)
    (attrs : List (Str × Str)) (nd : (attrs.map (·.1)).Nodup) (net : Nat) (conv : Str) (o : MsgOptions)
    (hq : search env attrs = .query net conv o) :
    ∃ cm target n all win, env.network = some (net, cm) ∧ (b!"in", target) ∈ attrs ∧ SearchLimit attrs n ∧
      listMessages fts ord (dbOf h) net conv o = win.map (·.1.m.raw) ∧ IsWindow keyOf all n true win ∧ all.Nodup ∧
      ∀ p, p ∈ all ↔ p ∈ h.zipIdx 1 ∧ InConv net (casemap cm target) false p ∧
        Matches env.parseTime fts attrs p.1.m.t p.1.m.sender p.1.m.text := by
  obtain ⟨s, hs, hnet, rfl, rfl⟩ := search_query hq
  have zy : InYears 0 := by unfold InYears dayNanos; omega
  have f1 := field_run (env := env) (·.start) b!"after" (fun v => (env.parseTime v).getD 0)
    (fun o a o' h => (attr_step h).1) attrs {} s hs nd
  have f2 := field_run (env := env) (·.stop) b!"before" (fun v => (env.parseTime v).getD 0)
    (fun o a o' h => (attr_step h).2.1) attrs {} s hs nd
  have f3 := field_run (env := env) (·.sender) b!"from" (fun v => v)
    (fun o a o' h => (attr_step h).2.2.1) attrs {} s hs nd
  have f4 := field_run (env := env) (fun o => (o.network, o.conv)) b!"in"
    (fun v => (env.network.map (·.1), casemap ((env.network.map (·.2)).getD .ascii) v))
    (fun o a o' h => (attr_step h).2.2.2.1) attrs {} s hs nd
  have f5 := field_run (env := env) (·.text) b!"text" (fun v => v)
    (fun o a o' h => (attr_step h).2.2.2.2.1) attrs {} s hs nd
  have f6 := field_run (env := env) (·.limit) b!"limit" (fun v => (atoi v).1)
    (fun o a o' h => (attr_step h).2.2.2.2.2.1) attrs {} s hs nd
  have hv := valid_run attrs {} s hs
  have v1 : ∀ k v, (k, v) ∈ attrs → k = b!"after" ∨ k = b!"before" → ∃ x, env.parseTime v = some x := by
    intro k v hm hk
    obtain ⟨o1, o2, ho⟩ := hv _ hm
    exact Option.ne_none_iff_exists'.1 ((attr_step ho).2.2.2.2.2.2.1 hk)
  have v2 : ∀ v, (b!"limit", v) ∈ attrs → ∃ k : Nat, parseInt64 v = some (k : Int) ∧ (atoi v).1 = k ∧ 1 ≤ k := by
    intro v hm
    obtain ⟨o1, o2, ho⟩ := hv _ hm
    obtain ⟨a1, a2⟩ := (attr_step ho).2.2.2.2.2.2.2.1 rfl
    dsimp only at a1 a2
    unfold atoi at a1 a2 ⊢
    cases hp : parseInt64 v with
    | none =>
      rw [hp] at a1
      dsimp only at a1
      split at a1 <;> split at a1 <;> cases a1
    | some k =>
      rw [hp] at a2
      dsimp only at a2
      exact ⟨k.toNat, by congr 1; omega, by dsimp only; omega, by omega⟩
  -- the conversation
  have hin : ∃ target, (b!"in", target) ∈ attrs := by
    apply Classical.byContradiction
    intro hno
    have := f4.2 (fun v hv => hno ⟨v, hv⟩)
    have := congrArg Prod.fst this
    dsimp only at this
    rw [hnet] at this
    cases this
  obtain ⟨target, htar⟩ := hin
  have hc := f4.1 target htar
  have hc1 := congrArg Prod.fst hc
  have hc2 := congrArg Prod.snd hc
  dsimp only at hc1 hc2
  rw [hnet] at hc1
  cases hn : env.network with
  | none => rw [hn] at hc1; cases hc1
  | some nc =>
    obtain ⟨net', cm⟩ := nc
    rw [hn] at hc1 hc2
    simp only [Option.map_some, Option.some.injEq, Option.getD_some] at hc1 hc2
    subst hc1
    -- the instants
    have y1 : InYears s.start := by
      by_cases he : ∃ v, (b!"after", v) ∈ attrs
      · obtain ⟨v, hm⟩ := he
        obtain ⟨x, hx⟩ := v1 _ v hm (Or.inl rfl)
        have := f1.1 v hm
        rw [this, hx]
        exact ht _ _ hx
      · have := f1.2 (fun v hm => he ⟨v, hm⟩)
        dsimp only at this
        rw [this]
        exact zy
    have y2 : InYears s.stop := by
      by_cases he : ∃ v, (b!"before", v) ∈ attrs
      · obtain ⟨v, hm⟩ := he
        obtain ⟨x, hx⟩ := v1 _ v hm (Or.inr rfl)
        have := f2.1 v hm
        rw [this, hx]
        exact ht _ _ hx
      · have := f2.2 (fun v hm => he ⟨v, hm⟩)
        dsimp only at this
        rw [this]
        exact zy
    obtain ⟨win, w1, w2⟩ := C35_search fts ord hord h hok net s.conv s.start s.stop
      (if s.limit > 100 then 100 else s.limit).toNat s.sender s.text y1 y2
    refine ⟨cm, target, (if s.limit > 100 then 100 else s.limit).toNat, _, win, rfl, htar, ?_, w1, w2,
      (zipIdx_nodup h 1).sublist List.filter_sublist, ?_⟩
    · have hl : (∃ v k, (b!"limit", v) ∈ attrs ∧ parseInt64 v = some ((k : Nat) : Int) ∧ s.limit = k ∧ 1 ≤ k) ∨
          ((∀ v, (b!"limit", v) ∉ attrs) ∧ s.limit = 100) := by
        by_cases he : ∃ v, (b!"limit", v) ∈ attrs
        · obtain ⟨v, hm⟩ := he
          obtain ⟨k, k1, k2, k3⟩ := v2 v hm
          have := f6.1 v hm
          exact Or.inl ⟨v, k, hm, k1, by rw [this, k2], k3⟩
        · exact Or.inr ⟨fun v hm => he ⟨v, hm⟩, f6.2 (fun v hm => he ⟨v, hm⟩)⟩
      rcases hl with ⟨v, k, hm, k1, k2, k3⟩ | ⟨hno, k2⟩
      · rw [k2]
        refine ⟨by split <;> omega, by split <;> omega, fun w hw => ?_, fun hno => absurd hm (hno v)⟩
        have : w = v := by
          have := eq_of_nodup_map nd hw hm rfl
          exact congrArg Prod.snd this
        rw [this]
        exact ⟨k, k1, by split <;> omega⟩
      · rw [k2]
        exact ⟨by decide, by decide, fun w hw => absurd hw (hno w), fun _ => by decide⟩
    · intro p
      simp only [List.mem_filter, decide_eq_true_eq]
      rw [hc2]
      have m1 : After s.start p.1.m.t ↔ ∀ v, (b!"after", v) ∈ attrs → ∃ x, env.parseTime v = some x ∧ After x p.1.m.t := by
        by_cases he : ∃ v, (b!"after", v) ∈ attrs
        · obtain ⟨v, hm⟩ := he
          obtain ⟨x, hx⟩ := v1 _ v hm (Or.inl rfl)
          have hf := f1.1 v hm
          rw [hf, hx]
          constructor
          · intro ha w hw
            have := congrArg Prod.snd (eq_of_nodup_map nd hw hm rfl)
            dsimp only at this
            rw [this]
            exact ⟨x, hx, ha⟩
          · intro ha
            obtain ⟨x', hx', ha'⟩ := ha v hm
            rw [hx] at hx'
            injection hx' with hx'
            rw [hx']
            exact ha'
        · have := f1.2 (fun v hm => he ⟨v, hm⟩)
          dsimp only at this
          rw [this]
          exact ⟨fun _ v hm => absurd ⟨v, hm⟩ he, fun _ => Or.inl rfl⟩
      have m2 : Before s.stop p.1.m.t ↔ ∀ v, (b!"before", v) ∈ attrs → ∃ x, env.parseTime v = some x ∧ Before x p.1.m.t := by
        by_cases he : ∃ v, (b!"before", v) ∈ attrs
        · obtain ⟨v, hm⟩ := he
          obtain ⟨x, hx⟩ := v1 _ v hm (Or.inr rfl)
          have hf := f2.1 v hm
          rw [hf, hx]
          constructor
          · intro ha w hw
            have := congrArg Prod.snd (eq_of_nodup_map nd hw hm rfl)
            dsimp only at this
            rw [this]
            exact ⟨x, hx, ha⟩
          · intro ha
            obtain ⟨x', hx', ha'⟩ := ha v hm
            rw [hx] at hx'
            injection hx' with hx'
            rw [hx']
            exact ha'
        · have := f2.2 (fun v hm => he ⟨v, hm⟩)
          dsimp only at this
          rw [this]
          exact ⟨fun _ v hm => absurd ⟨v, hm⟩ he, fun _ => Or.inl rfl⟩
      have m3 : (s.sender = [] ∨ p.1.m.sender = s.sender) ↔ ∀ v, (b!"from", v) ∈ attrs → v = [] ∨ p.1.m.sender = v := by
        by_cases he : ∃ v, (b!"from", v) ∈ attrs
        · obtain ⟨v, hm⟩ := he
          have hf := f3.1 v hm
          rw [hf]
          constructor
          · intro ha w hw
            have := congrArg Prod.snd (eq_of_nodup_map nd hw hm rfl)
            dsimp only at this
            rw [this]
            exact ha
          · intro ha
            exact ha v hm
        · have := f3.2 (fun v hm => he ⟨v, hm⟩)
          dsimp only at this
          rw [this]
          exact ⟨fun _ v hm => absurd ⟨v, hm⟩ he, fun _ => Or.inl rfl⟩
      have m4 : (s.text = [] ∨ fts s.text p.1.m.text = true) ↔ ∀ v, (b!"text", v) ∈ attrs → v = [] ∨ fts v p.1.m.text = true := by
        by_cases he : ∃ v, (b!"text", v) ∈ attrs
        · obtain ⟨v, hm⟩ := he
          have hf := f5.1 v hm
          rw [hf]
          constructor
          · intro ha w hw
            have := congrArg Prod.snd (eq_of_nodup_map nd hw hm rfl)
            dsimp only at this
            rw [this]
            exact ha
          · intro ha
            exact ha v hm
        · have := f5.2 (fun v hm => he ⟨v, hm⟩)
          dsimp only at this
          rw [this]
          exact ⟨fun _ v hm => absurd ⟨v, hm⟩ he, fun _ => Or.inl rfl⟩
      unfold Matches
      rw [m1, m2, m3, m4]

/-- C64: a well formed search is not refused. -/
theorem C64_accepted (env : HistEnv) (attrs : List (Str × Str)) (net : Nat) (cm : CaseMapping) (target : Str)
    (hst : env.hasStore = true) (hn : env.network = some (net, cm)) (nd : (attrs.map (·.1)).Nodup)
    (hin : (b!"in", target) ∈ attrs)
    (hv : ∀ k v, (k, v) ∈ attrs → (k = b!"after" ∨ k = b!"before" → ∃ x, env.parseTime v = some x) ∧
      (k = b!"limit" → ∃ n : Nat, 1 ≤ n ∧ parseInt64 v = some (n : Int))) :
    ∃ o, search env attrs = .query net (casemap cm target) o := by
  have step : ∀ o a, a ∈ attrs → ∃ o', searchAttr env o a = .inr o' := by
    rintro o ⟨k, v⟩ ha
    obtain ⟨h1, h2⟩ := hv k v ha
    unfold searchAttr
    dsimp only
    by_cases c1 : k = b!"before" ∨ k = b!"after"
    · rw [if_pos c1]
      obtain ⟨x, hx⟩ := h1 c1.symm
      rw [hx]
      exact ⟨_, rfl⟩
    rw [if_neg c1]
    by_cases c2 : k = b!"from"
    · rw [if_pos c2]; exact ⟨_, rfl⟩
    rw [if_neg c2]
    by_cases c3 : k = b!"in"
    · rw [if_pos c3, hn]; exact ⟨_, rfl⟩
    rw [if_neg c3]
    by_cases c4 : k = b!"text"
    · rw [if_pos c4]; exact ⟨_, rfl⟩
    rw [if_neg c4]
    by_cases c5 : k = b!"limit"
    · rw [if_pos c5]
      obtain ⟨n, hn1, hp⟩ := h2 c5
      have : atoi v = ((n : Int), true) := by unfold atoi; rw [hp]
      rw [this, if_neg (by simp; omega)]
      exact ⟨_, rfl⟩
    rw [if_neg c5]
    exact ⟨_, rfl⟩
  have run : ∀ l, (∀ a ∈ l, a ∈ attrs) → ∀ o, ∃ o', searchAttrs env o l = .inr o' := by
    intro l
    induction l with
    | nil => intro _ o; exact ⟨o, rfl⟩
    | cons a l ih =>
      intro hl o
      obtain ⟨o1, ho⟩ := step o a (hl a (by simp))
      obtain ⟨o2, ho2⟩ := ih (fun b hb => hl b (by simp [hb])) o1
      refine ⟨o2, ?_⟩
      unfold searchAttrs
      rw [ho]
      exact ho2
  obtain ⟨s, hs⟩ := run attrs (fun _ h => h) {}
  have f4 := field_run (env := env) (fun o => (o.network, o.conv)) b!"in"
    (fun v => (env.network.map (·.1), casemap ((env.network.map (·.2)).getD .ascii) v))
    (fun o a o' h => (attr_step h).2.2.2.1) attrs {} s hs nd
  have hc := f4.1 target hin
  have hc1 := congrArg Prod.fst hc
  have hc2 := congrArg Prod.snd hc
  dsimp only at hc1 hc2
  rw [hn] at hc1 hc2
  unfold search
  rw [if_neg (by simp [hst]), hs]
  dsimp only
  rw [hc1, hc2]
  exact ⟨_, rfl⟩

/-! ## The theorems are not about nothing -/

example : search histEnvEx [(b!"text", b!"hello"), (b!"limit", b!"500"), (b!"in", b!"#C")] =
    .query 1 b!"#c" (dbSearch 0 0 100 [] b!"hello") ∧
    search histEnvEx [(b!"in", b!"#C"), (b!"limit", b!"0")] = .invalid b!"limit" := by decide +kernel


example : WellFormed histEnvEx.parseTime histEnvEx.now
    [b!"AFTER", b!"#C", b!"timestamp=2019-01-01T00:00:00.000Z", b!"10"] b!"#C" 10
    (fun t => toMillis 63681897600000000000 < toMillis t ∧ toMillis t < toMillis histEnvEx.now) :=
  ⟨b!"10", [], ⟨by decide, by decide⟩, Or.inr (Or.inl ⟨b!"timestamp=2019-01-01T00:00:00.000Z", 63681897600000000000, rfl,
    ⟨b!"2019-01-01T00:00:00.000Z", rfl, by decide +kernel, by decide⟩, rfl⟩)⟩

example : chatHistory histEnvEx [b!"AFTER", b!"#C", b!"timestamp=2019-01-01T00:00:00.000Z", b!"10"] =
    .query (.after 1 b!"#c" 63681897600000000000 histEnvEx.now 10 false) ∧
    chatHistory histEnvEx [b!"AFTER", b!"#C", b!"timestamp=2019-01-01T00:00:00.000Z", b!"1001"] = .invalid b!"1001" := by
  decide +kernel

end Verif.Props
