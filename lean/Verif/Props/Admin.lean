import Verif.Spec.Admin
import Verif.Props.Words
import Verif.Props.Listen

/-! C88 — sojuctl runs exactly the command it is given and reports its result; the administration socket
refuses IRC clients. -/

namespace Verif.Props
open Verif.Model Verif.Spec Verif.Proof

private theorem client_iff (m : VMsg) : fromIrcClient m = true ↔
    (m.command = b!"CAP" ∨ m.command = b!"NICK" ∨ m.command = b!"USER" ∨ m.command = b!"PASS") := by
  simp [fromIrcClient]

/-- Whatever is sent on the administration socket: the command lines before the first message of an IRC client are run,
in this order, and nothing else; none while the server shuts down. -/
theorem C88_effect {S : Type} (svc : SvcCtx → S → List Str → S × List Str × Option Str) (pre : Str) (shutdown : Bool)
    (st : S) (ms : List VMsg) :
    (handleAdmin svc pre shutdown st ms).1 = if shutdown then st else effect svc st (adminLines ms) := by
  unfold handleAdmin
  cases shutdown
  · simp only [Bool.false_eq_true, if_false]
    induction ms generalizing st with
    | nil => rfl
    | cons m ms ih =>
      unfold admLoop admStep
      dsimp only
      by_cases h1 : m.command = b!"CAP" ∨ m.command = b!"NICK" ∨ m.command = b!"USER" ∨ m.command = b!"PASS"
      · rw [if_pos h1]
        simp only [if_true]
        unfold adminLines
        rw [if_pos ((client_iff m).mpr h1)]
        rfl
      · rw [if_neg h1]
        have h1' : ¬ fromIrcClient m = true := fun h => h1 ((client_iff m).mp h)
        by_cases h2 : m.command = b!"BOUNCERSERV"
        · rw [if_pos h2]
          cases hp : m.params with
          | nil =>
            simp only [Bool.false_eq_true, if_false]
            rw [ih]
            conv => rhs; unfold adminLines
            rw [if_neg h1', if_pos h2, hp]
            rfl
          | cons text rest =>
            have hl : adminLines (m :: ms) = text :: adminLines ms := by
              conv => lhs; unfold adminLines
              rw [if_neg h1', if_pos h2, hp]
              rfl
            rw [hl]
            have key : effect svc st (text :: adminLines ms) =
                effect svc (admText svc ⟨none, true⟩ st text).1 (adminLines ms) := by
              unfold admText
              conv => lhs; unfold effect
              cases splitWords text <;> rfl
            rw [key]
            simp only [Bool.false_eq_true, if_false]
            rw [ih]
        · rw [if_neg h2]
          simp only [Bool.false_eq_true, if_false]
          rw [ih]
          conv => rhs; unfold adminLines
          rw [if_neg h1', if_neg h2]
  · rfl

/-- An IRC client that connects to the socket by mistake, or a user who tries, changes nothing and is turned
away. -/
theorem C88_client {S : Type} (svc : SvcCtx → S → List Str → S × List Str × Option Str) (pre : Str) (shutdown : Bool)
    (st : S) (m : VMsg) (ms : List VMsg) (h : fromIrcClient m = true) :
    (handleAdmin svc pre shutdown st (m :: ms)).1 = st ∧
    ∃ text, (handleAdmin svc pre shutdown st (m :: ms)).2 = [⟨[], b!"ERROR", [text]⟩] := by
  refine ⟨?_, ?_⟩
  · rw [C88_effect]
    cases shutdown
    · simp [adminLines, h, effect]
    · rfl
  · unfold handleAdmin
    cases shutdown
    · simp only [Bool.false_eq_true, if_false]
      unfold admLoop admStep
      rw [if_pos ((client_iff m).mp h)]
      exact ⟨_, rfl⟩
    · exact ⟨_, rfl⟩

/-- Every message gets exactly one answer that is not a text printed by a command, up to the one that ends the
connection. -/
theorem C88_answers {S : Type} (svc : SvcCtx → S → List Str → S × List Str × Option Str) (pre : Str) (st : S)
    (ms : List VMsg) (h : ∀ m ∈ ms, fromIrcClient m = false) :
    ((handleAdmin svc pre false st ms).2.filter (fun o => decide (o.command ≠ b!"PRIVMSG"))).length = ms.length := by
  unfold handleAdmin
  simp only [Bool.false_eq_true, if_false]
  induction ms generalizing st with
  | nil => rfl
  | cons m ms ih =>
    have hm : ¬ (m.command = b!"CAP" ∨ m.command = b!"NICK" ∨ m.command = b!"USER" ∨ m.command = b!"PASS") := by
      intro hx
      have := h m (by simp)
      rw [(client_iff m).mpr hx] at this
      cases this
    have ih := fun st => ih st (fun m' hm' => h m' (by simp [hm']))
    have hlines : ∀ l : List Str, (l.map (fun t => (⟨pre, b!"PRIVMSG", [b!"*", t]⟩ : VMsg))).filter
        (fun o => decide (o.command ≠ b!"PRIVMSG")) = [] := by
      intro l
      rw [List.filter_eq_nil_iff]
      intro o ho
      rw [List.mem_map] at ho
      obtain ⟨t, -, rfl⟩ := ho
      simp
    unfold admLoop admStep
    rw [if_neg hm]
    by_cases h2 : m.command = b!"BOUNCERSERV"
    · rw [if_pos h2]
      cases hp : m.params with
      | nil =>
        simp only [Bool.false_eq_true, if_false, List.filter_append, List.length_append, ih]
        simp
        omega
      | cons text rest =>
        dsimp only
        have ha : ∀ e, (admAnswer pre m.command e).command ≠ b!"PRIVMSG" := by
          intro e
          cases e <;> simp [admAnswer, h2]
        simp only [Bool.false_eq_true, if_false, List.filter_append, List.length_append, ih, hlines]
        simp [ha]
        omega
    · rw [if_neg h2]
      simp only [Bool.false_eq_true, if_false, List.filter_append, List.length_append, ih]
      simp
      omega

private theorem read_lines (pre : Str) (l : List Str) (ms : List VMsg) :
    ctlRead (l.map (fun t => (⟨pre, b!"PRIVMSG", [b!"*", t]⟩ : VMsg)) ++ ms) = (l ++ (ctlRead ms).1, (ctlRead ms).2) := by
  induction l with
  | nil => rfl
  | cons t l ih =>
    rw [List.map_cons, List.cons_append]
    conv => lhs; unfold ctlRead
    rw [if_pos rfl, ih]
    rfl

private theorem fmt_plain (s : Str) (h : 37 ∉ s) : fmtNoArgs false s = s := by
  induction s with
  | nil => rfl
  | cons c s ih =>
    have h1 : c ≠ 37 := fun e => h (by simp [e])
    unfold fmtNoArgs
    rw [if_neg h1, ih (fun e => h (by simp [e]))]

private theorem session_out {S : Type} (svc : AdmSvc S) (isPrint : Nat → Bool) (pre : Str) (st : S) (ws : List Str) :
    handleAdmin svc pre false st [ctlMessage isPrint ws] =
      ((admText svc ⟨none, true⟩ st (quoteWords isPrint ws)).1,
        (admText svc ⟨none, true⟩ st (quoteWords isPrint ws)).2.1.map (fun t => (⟨pre, b!"PRIVMSG", [b!"*", t]⟩ : VMsg)) ++
          [admAnswer pre b!"BOUNCERSERV" (admText svc ⟨none, true⟩ st (quoteWords isPrint ws)).2.2]) := by
  unfold handleAdmin
  simp only [Bool.false_eq_true, if_false]
  unfold admLoop admStep ctlMessage
  simp [admLoop]

/-- sojuctl with printable words: the service runs the command made of exactly these words, with the rights of an
administrator; the texts it prints are printed, and sojuctl succeeds just when the command does. If it fails
its error is shown.

Missing: an error that has a percent sign in it, see `C88_error_violated`; words that are not printable, see
`C38_sojuctl_violated`. -/
theorem C88_ctl_partial {S : Type} (svc : SvcCtx → S → List Str → S × List Str × Option Str) (isPrint : Nat → Bool)
    (pre : Str) (st : S) (ws : List Str) (h : ∀ w ∈ ws, ∀ c ∈ w, isPrint c = true) (n : Nat)
    (hn : (svc ⟨none, true⟩ st ws).2.1.length < n) :
    (ctlSession svc isPrint pre false n st ws).1 = (svc ⟨none, true⟩ st ws).1 ∧
    (ctlSession svc isPrint pre false n st ws).2.1 = (svc ⟨none, true⟩ st ws).2.1 ∧
    ((ctlSession svc isPrint pre false n st ws).2.2 = none ↔ (svc ⟨none, true⟩ st ws).2.2 = none) ∧
    (∀ e, (svc ⟨none, true⟩ st ws).2.2 = some e → 37 ∉ e →
      (ctlSession svc isPrint pre false n st ws).2.2 = some e) := by
  unfold ctlSession
  have hx : admText svc ⟨none, true⟩ st (quoteWords isPrint ws) = svc ⟨none, true⟩ st ws := by
    unfold admText
    rw [C38_sojuctl_partial isPrint ws h]
  rw [session_out svc isPrint pre st ws, hx]
  dsimp only
  rw [List.take_of_length_le (by simp; omega), read_lines]
  cases hr : (svc ⟨none, true⟩ st ws).2.2 with
  | none =>
    refine ⟨rfl, by simp [ctlRead, admAnswer], by simp [ctlRead, admAnswer], fun e he => by cases he⟩
  | some e =>
    refine ⟨rfl, by simp [ctlRead, admAnswer], by simp [ctlRead, admAnswer], ?_⟩
    intro e' he hp
    obtain rfl := Option.some.inj he
    simp [ctlRead, admAnswer, msgTrailing, fmt_plain e hp]

/-- sojuctl never reports success wrongly: wherever the connection fails and whatever the words, if it ends without an
error then a command was run without error and all that it printed is shown. -/
theorem C88_success {S : Type} (svc : SvcCtx → S → List Str → S × List Str × Option Str) (isPrint : Nat → Bool)
    (pre : Str) (shutdown : Bool) (st : S) (ws : List Str) (n : Nat)
    (h : (ctlSession svc isPrint pre shutdown n st ws).2.2 = none) :
    shutdown = false ∧ ∃ words, splitWords (quoteWords isPrint ws) = some words ∧
      (svc ⟨none, true⟩ st words).2.2 = none ∧
      (ctlSession svc isPrint pre shutdown n st ws).1 = (svc ⟨none, true⟩ st words).1 ∧
      (ctlSession svc isPrint pre shutdown n st ws).2.1 = (svc ⟨none, true⟩ st words).2.1 := by
  cases shutdown with
  | true =>
    exfalso
    unfold ctlSession handleAdmin at h
    simp only [if_true] at h
    cases n with
    | zero => simp [ctlRead] at h
    | succ n => simp [ctlRead] at h
  | false =>
    refine ⟨rfl, ?_⟩
    unfold ctlSession at h ⊢
    rw [session_out] at h ⊢
    dsimp only at h ⊢
    have hn : ∀ (l : List Str) (r : List VMsg) (k : Nat), k ≤ l.length →
        (ctlRead ((l.map (fun t => (⟨pre, b!"PRIVMSG", [b!"*", t]⟩ : VMsg)) ++ r).take k)).2 ≠ none := by
      intro l r k hk
      rw [List.take_append_of_le_length (by simpa using hk), ← List.map_take]
      have := read_lines pre (l.take k) []
      rw [List.append_nil] at this
      rw [this]
      simp [ctlRead]
    by_cases hk : n ≤ (admText svc ⟨none, true⟩ st (quoteWords isPrint ws)).2.1.length
    · exact absurd h (hn _ _ n hk)
    · rw [List.take_of_length_le (by simp; omega), read_lines] at h ⊢
      cases hr : (admText svc ⟨none, true⟩ st (quoteWords isPrint ws)).2.2 with
      | some e => rw [hr] at h; simp [ctlRead, admAnswer] at h
      | none =>
        clear h hk hn
        unfold admText at hr ⊢
        cases hw : splitWords (quoteWords isPrint ws) with
        | none => rw [hw] at hr; cases hr
        | some words =>
          rw [hw] at hr
          exact ⟨words, rfl, hr, rfl, by simp [ctlRead, admAnswer]⟩

/-- sojuctl connects to a socket on which the bouncer serves the administration, if the configuration file has one and it
is written as documented, with `:/` after the scheme. -/
theorem C88_path (lib : UrlLib) (c : ServerConfig) (args : List Str) (ls : List Listener)
    (h : startListeners lib c args = some ls)
    (hform : ∀ d ∈ c.listen, hasPrefix b!"unix+admin:" (asciiLower d) = true → ∃ a b, cutStr b!":/" d = some (a, b)) :
    (∀ p, ctlPath lib c.listen = some p → ∃ l ∈ ls, l.service = .admin ∧ l.addr = .unix p) ∧
    ((∃ d ∈ c.listen, ∃ l, listenOn lib c.tls.isSome d = some l ∧ l.service = .admin) →
      ∃ p, ctlPath lib c.listen = some p) := by
  constructor
  · intro p hp
    have hfind : ∀ ds : List Str, ctlPath lib ds = some p → ∃ d ∈ ds, ∃ u, urlParse lib d = some u ∧
        u.scheme = b!"unix+admin" ∧ p = if u.host ++ u.path = [] then defaultUnixAdminPath else u.host ++ u.path := by
      intro ds
      induction ds with
      | nil => intro hx; cases hx
      | cons d ds ih =>
        intro hx
        unfold ctlPath at hx
        split at hx
        · obtain ⟨d', hd, hr⟩ := ih hx
          exact ⟨d', by simp [hd], hr⟩
        · rename_i u hu
          split at hx
          · obtain ⟨d', hd, hr⟩ := ih hx
            exact ⟨d', by simp [hd], hr⟩
          · rename_i hs
            exact ⟨d, by simp, u, hu, Classical.not_not.mp hs, (Option.some.inj hx).symm⟩
    obtain ⟨d, hd, u, hu, hs, hpe⟩ := hfind _ hp
    obtain ⟨rest, hr⟩ := C87_scheme hu (by rw [hs]; decide)
    rw [hs] at hr
    have hpre : hasPrefix b!"unix+admin:" (asciiLower d) = true := by
      rw [hr]
      have : b!"unix+admin" ++ 58 :: rest = b!"unix+admin:" ++ rest := by simp
      rw [this]
      simp [hasPrefix]
    obtain ⟨a, b, hcut⟩ := hform d hd hpre
    have hl : listenOn lib c.tls.isSome d = some ⟨.admin, .unix p, false, some (p, 0o600)⟩ := by
      unfold listenOn listenUri
      rw [hcut]
      dsimp only
      rw [hu]
      dsimp only
      rw [hs, hpe]
      simp
    have hne : c.listen ++ args ≠ [] := by
      intro e
      rw [List.append_eq_nil_iff] at e
      rw [e.1] at hd
      cases hd
    have hmap := (C87_start lib c args ls h).1 hne
    have hmem : some (⟨.admin, .unix p, false, some (p, 0o600)⟩ : Listener) ∈ ls.map some := by
      rw [hmap, List.mem_map]
      exact ⟨d, by simp [hd], hl⟩
    rw [List.mem_map] at hmem
    obtain ⟨l, hl, e⟩ := hmem
    obtain rfl := Option.some.inj e
    exact ⟨_, hl, rfl, rfl⟩
  · rintro ⟨d, hd, l, hl, ha⟩
    have hu : ∃ u, urlParse lib d = some u ∧ u.scheme = b!"unix+admin" := C87_admin_scheme hl ha
    obtain ⟨u, hu, hs⟩ := hu
    have : ∀ ds : List Str, d ∈ ds → ∃ p, ctlPath lib ds = some p := by
      intro ds
      induction ds with
      | nil => intro hx; cases hx
      | cons d' ds ih =>
        intro hx
        unfold ctlPath
        rcases List.mem_cons.mp hx with rfl | hx
        · rw [hu]
          dsimp only
          rw [if_neg (by simp [hs])]
          exact ⟨_, rfl⟩
        · split
          · exact ih hx
          · split
            · exact ih hx
            · exact ⟨_, rfl⟩
    exact this _ hd

/-! ## Cases that meet the hypotheses, and what does not hold -/

/-- A service that knows one command. -/
private def echo : AdmSvc (List (List Str)) := fun ctx st words =>
  match words with
  | [] => (st, [], some b!"no command specified")
  | b!"echo" :: rest => (st ++ [words], rest, if ctx.admin then none else some b!"no")
  | w :: _ => (st, [], some (b!"command \"" ++ w ++ b!"\" not found"))

private def ascii (c : Nat) : Bool := decide (32 ≤ c ∧ c < 127)

example : ctlSession echo ascii b!"soju" false 9 [] [b!"echo", b!"a b", b!"\"c"] =
      ([[b!"echo", b!"a b", b!"\"c"]], [b!"a b", b!"\"c"], none) ∧
    ctlSession echo ascii b!"soju" false 1 [] [b!"echo", b!"a", b!"b"] =
      ([[b!"echo", b!"a", b!"b"]], [b!"a"], some b!"read: EOF") ∧
    handleAdmin echo b!"soju" false [] [⟨[], b!"BOUNCERSERV", [b!"echo x"]⟩, ⟨[], b!"NICK", [b!"n"]⟩,
      ⟨[], b!"BOUNCERSERV", [b!"echo y"]⟩] =
      ([[b!"echo", b!"x"]], [⟨b!"soju", b!"PRIVMSG", [b!"*", b!"x"]⟩, ⟨b!"soju", b!"BOUNCERSERV", [b!"OK"]⟩,
        ⟨[], b!"ERROR", [b!"This is not a regular IRC server"]⟩]) := by decide +kernel

example :
    let c := { configDefaults ⟨none, fun _ => none, fun _ => none⟩ with
      listen := [b!"irc://localhost", b!"unix+admin:///run/a", b!"unix+admin://"] }
    startListeners ⟨some, fun _ => true⟩ c [] = some [⟨.irc, .tcp b!"localhost:6667", false, none⟩,
      ⟨.admin, .unix b!"/run/a", false, some (b!"/run/a", 0o600)⟩,
      ⟨.admin, .unix b!"/run/soju/admin", false, some (b!"/run/soju/admin", 0o600)⟩] ∧
    ctlPath ⟨some, fun _ => true⟩ c.listen = some b!"/run/a" ∧
    ∀ d ∈ c.listen, hasPrefix b!"unix+admin:" (asciiLower d) = true → (cutStr b!":/" d).isSome = true := by
  decide +kernel

/-- An error is used as a format: what it says about percent signs is shown wrongly. -/
theorem C88_error_violated :
    (echo ⟨none, true⟩ [] [b!"50%"]).2.2 = some b!"command \"50%\" not found" ∧
    (ctlSession echo ascii b!"soju" false 9 [] [b!"50%"]).2.2 = some b!"command \"50%!\"(MISSING) not found" := by
  decide +kernel

end Verif.Props
