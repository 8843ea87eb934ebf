import Verif.Model.Greeting
import Verif.Props.Isupport

/-! # C105: the greeting -/

namespace Verif.Props
open Verif.Model Verif.Spec Verif.Proof

/-! ## Specification -/

/-- The features in the RPL_ISUPPORT messages among these, as the client decodes them. -/
def toldTokens (msgs : List Msg) : List Str :=
  (msgs.filter (fun m => m.command = b!"005")).flatMap (fun m => ((m.params.drop 1).dropLast).map isupportDecode)

/-- What a client that was sent these messages knows of a feature: nothing, that it is there, or its value. -/
def told (msgs : List Msg) (name : Str) : Option (Option Str) := lastSaid name (toldTokens msgs)

/-- The lines of the message of the day among these messages. -/
def motdLines (msgs : List Msg) : List Str :=
  (msgs.filter (fun m => m.command = b!"372")).map (fun m => m.params.getLast?.getD [])

/-- Messages about the host, the real name and the account of the user. -/
def AboutUser (msgs : List Msg) : Prop :=
  ∀ m ∈ msgs, m.command ∈ [b!"CHGHOST", b!"396", b!"SETNAME", b!"900", b!"901"]

/-! ## Proofs -/

private theorem told_append (a b : List Msg) : toldTokens (a ++ b) = toldTokens a ++ toldTokens b := by
  unfold toldTokens; rw [List.filter_append, List.flatMap_append]

private theorem told_none (a : List Msg) (h : ∀ m ∈ a, m.command ≠ b!"005") : toldTokens a = [] := by
  unfold toldTokens
  rw [List.filter_eq_nil_iff.2 (fun m hm => by simpa using h m hm)]
  rfl

private theorem told_isupport (tokens : List Str) : toldTokens (generateIsupport tokens) = tokens := by
  unfold toldTokens
  rw [List.filter_eq_self.2 (fun m hm => by simpa using ((C08_isupport_lossless tokens).2 m hm).1)]
  exact (C08_isupport_lossless tokens).1

private theorem motd_append (a b : List Msg) : motdLines (a ++ b) = motdLines a ++ motdLines b := by
  unfold motdLines; rw [List.filter_append, List.map_append]

private theorem motd_none (a : List Msg) (h : ∀ m ∈ a, m.command ≠ b!"372") : motdLines a = [] := by
  unfold motdLines
  rw [List.filter_eq_nil_iff.2 (fun m hm => by simpa using h m hm)]
  rfl

/-- The greeting up to the identity. -/
private def head1 (cfg : GrConfig) (c : GrClient) : List Msg :=
  [⟨b!"001", [c.nick, b!"Welcome to soju, " ++ c.nick]⟩,
   ⟨b!"002", [c.nick, b!"Your host is " ++ cfg.hostname]⟩,
   ⟨b!"004", [c.nick, cfg.hostname, b!"soju", b!"aiwroO", b!"OovaimnqpsrtklbeI"]⟩]

private def modes1 (c : GrClient) : List Msg :=
  (match c.upstream with
    | some uc => [⟨b!"221", [c.nick, b!"+" ++ uc.modes]⟩]
    | none => []) ++
  (if c.network.isNone && c.admin then [⟨b!"221", [c.nick, b!"+o"]⟩] else [])

private theorem greeting_eq (cfg : GrConfig) (c : GrClient) (order : List Str) (identity : List Msg) :
    greeting cfg c order identity =
      head1 cfg c ++ (generateIsupport (greetTokens cfg c order) ++ (modes1 c ++ (identity ++ greetMotd cfg c))) := by
  unfold greeting head1 modes1
  simp only [List.append_assoc]
  cases c.upstream <;> rfl

private theorem modes_cmd (c : GrClient) : ∀ m ∈ modes1 c, m.command = b!"221" ∧ m.params.head? = some c.nick := by
  intro m hm
  unfold modes1 at hm
  rcases List.mem_append.1 hm with hm | hm
  · split at hm
    · rw [List.mem_singleton] at hm; subst hm; exact ⟨rfl, rfl⟩
    · cases hm
  · split at hm
    · rw [List.mem_singleton] at hm; subst hm; exact ⟨rfl, rfl⟩
    · cases hm

private theorem motd_cmd (cfg : GrConfig) (c : GrClient) : ∃ pre last, greetMotd cfg c = pre ++ [last] ∧
    (last.command = b!"376" ∨ last.command = b!"422") ∧ ∀ m ∈ pre, m.command = b!"375" ∨ m.command = b!"372" := by
  unfold greetMotd
  split
  · unfold generateMOTD
    refine ⟨_, _, rfl, Or.inl rfl, fun m hm => ?_⟩
    rcases List.mem_append.1 hm with hm | hm
    · rw [List.mem_singleton] at hm; subst hm; exact Or.inl rfl
    · obtain ⟨l, -, rfl⟩ := List.mem_map.1 hm
      exact Or.inr rfl
  · exact ⟨[], _, rfl, Or.inr rfl, by simp⟩

private theorem user_cmd {identity : List Msg} (h : AboutUser identity) (cmd : Str)
    (hc : cmd ∉ [b!"CHGHOST", b!"396", b!"SETNAME", b!"900", b!"901"]) : ∀ m ∈ identity, m.command ≠ cmd := by
  intro m hm e
  exact hc (e ▸ h m hm)

private theorem told_greeting (cfg : GrConfig) (c : GrClient) (order : List Str) (identity : List Msg)
    (h : AboutUser identity) : toldTokens (greeting cfg c order identity) = greetTokens cfg c order := by
  rw [greeting_eq, told_append, told_append, told_append, told_append, told_isupport, told_none (head1 cfg c),
    told_none (modes1 c), told_none identity, told_none (greetMotd cfg c)]
  · simp
  · obtain ⟨pre, last, e, h1, h2⟩ := motd_cmd cfg c
    rw [e]
    intro m hm
    rcases List.mem_append.1 hm with hm | hm
    · rcases h2 m hm with h2 | h2 <;> rw [h2] <;> decide
    · rw [List.mem_singleton] at hm
      subst hm
      rcases h1 with h1 | h1 <;> rw [h1] <;> decide
  · exact user_cmd h _ (by decide)
  · intro m hm; rw [(modes_cmd c m hm).1]; decide
  · intro m hm
    simp only [head1, List.mem_cons, List.not_mem_nil, or_false] at hm
    rcases hm with rfl | rfl | rfl <;> simp

private theorem said_append (name : Str) (a b : List Str) :
    lastSaid name (a ++ b) = (lastSaid name b).or (lastSaid name a) := by
  unfold lastSaid
  rw [List.reverse_append, List.find?_append]
  cases b.reverse.find? (fun t => decide (saidName t = name)) <;> rfl

private theorem said_one (name t : Str) : lastSaid name [t] = if saidName t = name then some (saidValue t) else none := by
  unfold lastSaid
  by_cases h : saidName t = name <;> simp [h]

private theorem said_cons (name t : Str) (l : List Str) :
    lastSaid name (t :: l) = (lastSaid name l).or (if saidName t = name then some (saidValue t) else none) := by
  rw [← said_one, ← said_append]
  rfl

private theorem said_nil (name : Str) : lastSaid name [] = none := rfl

private theorem name_value (k v : Str) (h : 61 ∉ k) : saidName (k ++ 61 :: v) = k.map upperByte ∧ saidValue (k ++ 61 :: v) = some v := by
  have h1 : ∀ k : Str, 61 ∉ k → (k ++ 61 :: v).takeWhile (fun c => decide (c ≠ 61)) = k ∧
      (k ++ 61 :: v).dropWhile (fun c => decide (c ≠ 61)) = 61 :: v := by
    intro k
    induction k with
    | nil => intro _; simp
    | cons c k ih =>
      intro hk
      have hc : c ≠ 61 := by rintro rfl; simp at hk
      obtain ⟨i1, i2⟩ := ih (fun hm => hk (by simp [hm]))
      constructor
      · rw [List.cons_append, List.takeWhile_cons, if_pos (by simpa using hc), i1]
      · rw [List.cons_append, List.dropWhile_cons, if_pos (by simpa using hc), i2]
  obtain ⟨i1, i2⟩ := h1 k h
  unfold saidName saidValue
  rw [i1, i2]
  exact ⟨rfl, rfl⟩

private theorem name_bare (k : Str) (h : 61 ∉ k) : saidName k = k.map upperByte ∧ saidValue k = none := by
  have h1 : ∀ k : Str, 61 ∉ k → k.takeWhile (fun c => decide (c ≠ 61)) = k ∧ k.dropWhile (fun c => decide (c ≠ 61)) = [] := by
    intro k
    induction k with
    | nil => intro _; simp
    | cons c k ih =>
      intro hk
      have hc : c ≠ 61 := by rintro rfl; simp at hk
      obtain ⟨i1, i2⟩ := ih (fun hm => hk (by simp [hm]))
      constructor
      · rw [List.takeWhile_cons, if_pos (by simpa using hc), i1]
      · rw [List.dropWhile_cons, if_pos (by simpa using hc), i2]
  obtain ⟨i1, i2⟩ := h1 k h
  unfold saidName saidValue
  rw [i1, i2]
  exact ⟨rfl, rfl⟩

private theorem tok_title (v : Str) : saidName (b!"NETWORK=" ++ v) = b!"NETWORK" ∧ saidValue (b!"NETWORK=" ++ v) = some v :=
  name_value b!"NETWORK" v (by decide)
private theorem tok_netid (v : Str) : saidName (b!"BOUNCER_NETID=" ++ v) = b!"BOUNCER_NETID" ∧
    saidValue (b!"BOUNCER_NETID=" ++ v) = some v := name_value b!"BOUNCER_NETID" v (by decide)
private theorem tok_vapid (v : Str) : saidName (b!"VAPID=" ++ v) = b!"VAPID" ∧ saidValue (b!"VAPID=" ++ v) = some v :=
  name_value b!"VAPID" v (by decide)
private theorem tok_filehost (v : Str) : saidName (b!"soju.im/FILEHOST=" ++ v) = b!"SOJU.IM/FILEHOST" ∧
    saidValue (b!"soju.im/FILEHOST=" ++ v) = some v := name_value b!"soju.im/FILEHOST" v (by decide)

private def tokOf (st : IsState) (k : Str) : Option Str :=
  match GoMap.get st.isupport k with
  | none => none
  | some (some v) => some (k ++ b!"=" ++ v)
  | some none => some k

private theorem welcome_eq (st : IsState) (order : List Str) : welcomeTokens st order = order.filterMap (tokOf st) := by
  unfold welcomeTokens
  congr 1

private theorem tokOf_some (st : IsState) (k t : Str) (h1 : 61 ∉ k) (h2 : k.map upperByte = k) (ht : tokOf st k = some t) :
    saidName t = k ∧ some (saidValue t) = GoMap.get st.isupport k := by
  unfold tokOf at ht
  split at ht
  · cases ht
  · rename_i v hv
    have := Option.some.inj ht
    subst this
    have := name_value k v h1
    rw [show k ++ b!"=" ++ v = k ++ 61 :: v by simp, this.1, this.2, h2, hv]
    exact ⟨rfl, rfl⟩
  · rename_i hv
    have := Option.some.inj ht
    subst this
    have := name_bare k h1
    rw [this.1, this.2, h2, hv]
    exact ⟨rfl, rfl⟩

private theorem tokOf_none (st : IsState) (k : Str) (ht : tokOf st k = none) : GoMap.get st.isupport k = none := by
  unfold tokOf at ht
  split at ht
  · assumption
  · cases ht
  · cases ht

private theorem said_welcome (st : IsState) (order : List Str) (hn : order.Nodup) (hk : ∀ k ∈ order, 61 ∉ k ∧ k.map upperByte = k)
    (name : Str) : lastSaid name (welcomeTokens st order) = if name ∈ order then GoMap.get st.isupport name else none := by
  rw [welcome_eq]
  induction order with
  | nil => rfl
  | cons k order ih =>
    have hn' := (List.nodup_cons.1 hn)
    have ih := ih hn'.2 (fun x hx => hk x (by simp [hx]))
    obtain ⟨h1, h2⟩ := hk k (by simp)
    by_cases hx : name = k
    · subst hx
      rw [if_neg hn'.1] at ih
      rw [if_pos (by simp)]
      cases hf : tokOf st name with
      | none => rw [List.filterMap_cons_none hf, ih, tokOf_none st name hf]
      | some t =>
        obtain ⟨e1, e2⟩ := tokOf_some st name t h1 h2 hf
        rw [List.filterMap_cons_some hf, said_cons, ih, if_pos e1, e2]
        rfl
    · have hm : (name ∈ k :: order) ↔ name ∈ order := by simp [hx]
      simp only [hm]
      cases hf : tokOf st k with
      | none => rw [List.filterMap_cons_none hf]; exact ih
      | some t =>
        have hne : ¬ saidName t = name := by rw [(tokOf_some st k t h1 h2 hf).1]; exact Ne.symm hx
        rw [List.filterMap_cons_some hf, said_cons, ih, if_neg hne]
        simp

private def serverTokens (conn : Option GrConn) (order : List Str) : List Str :=
  match conn with
  | some uc =>
    (if (GoMap.get uc.is.isupport b!"CLIENTTAGDENY").isNone && !uc.tags then [b!"CLIENTTAGDENY=*"] else []) ++
      welcomeTokens uc.is order
  | none => []

private def serverFeature (conn : Option GrConn) (name : Str) : Option (Option Str) :=
  match conn with
  | none => none
  | some uc => if name ∈ clientFeatures then (match GoMap.get uc.is.isupport name with
    | none => if name = b!"CLIENTTAGDENY" ∧ uc.tags = false then some (some b!"*") else none
    | some v => some v) else none

private theorem features_ok : passthroughIsupport.Nodup ∧ ∀ k ∈ passthroughIsupport, 61 ∉ k ∧ k.map upperByte = k := by
  decide +kernel

private theorem features_mem (name : Str) : name ∈ passthroughIsupport ↔ name ∈ clientFeatures := by
  have : passthroughIsupport.Perm clientFeatures := by decide +kernel
  exact this.mem_iff

/-! ## Theorems -/

/-- The greeting starts with the welcome, which tells the client its nick, and ends with the end of the message of the day,
or with the message that there is none; neither occurs anywhere else in it. -/
theorem C105_frame (cfg : GrConfig) (c : GrClient) (order : List Str) (identity : List Msg) (h : AboutUser identity) :
    ∃ rest last, greeting cfg c order identity = ⟨b!"001", [c.nick, b!"Welcome to soju, " ++ c.nick]⟩ :: rest ++ [last] ∧
      (last.command = b!"376" ∨ last.command = b!"422") ∧
      ∀ m ∈ rest, m.command ∉ [b!"001", b!"376", b!"422"] := by
  obtain ⟨pre, last, e, h1, h2⟩ := motd_cmd cfg c
  refine ⟨(head1 cfg c).tail ++ (generateIsupport (greetTokens cfg c order) ++ (modes1 c ++ (identity ++ pre))), last, ?_, h1, ?_⟩
  · rw [greeting_eq, e]
    simp only [head1, List.tail_cons, List.cons_append, List.append_assoc, List.nil_append]
  · intro m hm
    simp only [List.mem_append] at hm
    rcases hm with hm | hm | hm | hm | hm
    · simp only [head1, List.tail_cons, List.mem_cons, List.not_mem_nil, or_false] at hm
      rcases hm with rfl | rfl <;> simp
    · rw [((C08_isupport_lossless _).2 m hm).1]; decide
    · rw [(modes_cmd c m hm).1]; decide
    · have := h m hm
      generalize m.command = x at this
      simp only [List.mem_cons, List.not_mem_nil, or_false] at this
      rcases this with rfl | rfl | rfl | rfl | rfl <;> decide
    · rcases h2 m hm with h2 | h2 <;> rw [h2] <;> decide

/-- The nick of the greeting is the one on the network, if it is connected, the one to be used there, if it is not, and
the name of the user on the connection to the bouncer. -/
theorem C105_nick (c : GrClient) :
    (∀ id uc nick, c.network = some (id, some uc, nick) → c.nick = uc.nick) ∧
    (∀ id nick, c.network = some (id, none, nick) → c.nick = nick) ∧
    (c.network = none → c.nick = c.username) := by
  refine ⟨?_, ?_, ?_⟩
  · intro id uc nick h; simp [GrClient.nick, GrClient.upstream, h]
  · intro id nick h; simp [GrClient.nick, GrClient.upstream, h]
  · intro h; simp [GrClient.nick, GrClient.upstream, h]

/-- On the connection to the bouncer, the message of the day is the one of the settings, line by line; there is none on a
network, or if the settings have none. -/
theorem C105_motd (cfg : GrConfig) (c : GrClient) (order : List Str) (identity : List Msg) (h : AboutUser identity) :
    (c.network = none → cfg.motd ≠ [] →
      joinStr b!"\n" (motdLines (greeting cfg c order identity)) = cfg.motd ∧
      ∀ l ∈ motdLines (greeting cfg c order identity), 10 ∉ l) ∧
    ((c.network ≠ none ∨ cfg.motd = []) → motdLines (greeting cfg c order identity) = []) := by
  have e : motdLines (greeting cfg c order identity) = motdLines (greetMotd cfg c) := by
    rw [greeting_eq, motd_append, motd_append, motd_append, motd_append, motd_none (head1 cfg c),
      motd_none (modes1 c), motd_none identity, motd_none (generateIsupport _)]
    · simp
    · intro m hm; rw [((C08_isupport_lossless _).2 m hm).1]; decide
    · exact user_cmd h _ (by decide)
    · intro m hm; rw [(modes_cmd c m hm).1]; decide
    · intro m hm
      simp only [head1, List.mem_cons, List.not_mem_nil, or_false] at hm
      rcases hm with rfl | rfl | rfl <;> simp
  rw [e]
  constructor
  · intro hn hm
    have e2 : motdLines (greetMotd cfg c) = splitByte 10 cfg.motd := by
      unfold greetMotd
      rw [if_pos (by simp [hn, hm])]
      unfold generateMOTD
      rw [motd_append, motd_append, motd_none [_] (by simp), motd_none [_] (by simp)]
      unfold motdLines
      rw [List.filter_eq_self.2 (by intro m hm; obtain ⟨l, -, rfl⟩ := List.mem_map.1 hm; rfl), List.map_map]
      simp [Function.comp_def]
    rw [e2]
    exact ⟨joinStr_splitByte 10 cfg.motd, splitByte_mem_free 10 cfg.motd⟩
  · intro hn
    unfold greetMotd
    rw [if_neg (by
      rcases hn with hn | hn
      · cases hc : c.network with
        | none => exact absurd hc hn
        | some n => simp
      · simp [hn])]
    exact motd_none _ (by simp)

/-- What a client of the bouncer is told: names are compared as in ASCII, there are no channels, the name of the service is
the title, lines may have 4096 bytes, and files and push messages are announced exactly if there are such. -/
theorem C105_bouncer (cfg : GrConfig) (c : GrClient) (order : List Str) (identity : List Msg) (h : AboutUser identity)
    (hn : c.network = none) :
    let g := greeting cfg c order identity
    told g b!"CASEMAPPING" = some (some b!"ascii") ∧ told g b!"CHANTYPES" = some (some []) ∧
    told g b!"BOT" = some (some b!"B") ∧ told g b!"WHOX" = some none ∧ told g b!"LINELEN" = some (some b!"4096") ∧
    told g b!"SOJU.IM/SAFERATE" = some none ∧
    told g b!"NETWORK" = (if cfg.title = [] then none else some (some cfg.title)) ∧
    told g b!"VAPID" = (if c.webpush then some (some c.vapid) else none) ∧
    told g b!"SOJU.IM/FILEHOST" = (if cfg.upload then some (some (cfg.ingress ++ b!"/uploads")) else none) ∧
    ∀ name, name ∉ [b!"CASEMAPPING", b!"CHANTYPES", b!"BOT", b!"WHOX", b!"LINELEN", b!"SOJU.IM/SAFERATE", b!"NETWORK", b!"VAPID",
      b!"SOJU.IM/FILEHOST"] → told g name = none := by
  intro g
  unfold told
  rw [told_greeting cfg c order identity h]
  have e : greetTokens cfg c order = b!"soju.im/SAFERATE" :: b!"BOT=B" :: b!"CASEMAPPING=ascii" ::
      ((if cfg.title ≠ [] then [b!"NETWORK=" ++ cfg.title] else []) ++
        (b!"WHOX" :: b!"CHANTYPES=" :: b!"LINELEN=4096" :: ((if c.webpush then [b!"VAPID=" ++ c.vapid] else []) ++
          (if cfg.upload then [b!"soju.im/FILEHOST=" ++ (cfg.ingress ++ b!"/uploads")] else [])))) := by
    unfold greetTokens permanentIsupport GrClient.upstream
    simp only [hn]
    by_cases ht : cfg.title = [] <;> simp [ht]
  rw [e]
  have n1 : saidName b!"soju.im/SAFERATE" = b!"SOJU.IM/SAFERATE" ∧ saidValue b!"soju.im/SAFERATE" = none := by decide
  have n2 : saidName b!"BOT=B" = b!"BOT" ∧ saidValue b!"BOT=B" = some b!"B" := by decide
  have n3 : saidName b!"CASEMAPPING=ascii" = b!"CASEMAPPING" ∧ saidValue b!"CASEMAPPING=ascii" = some b!"ascii" := by decide
  have n4 : saidName b!"WHOX" = b!"WHOX" ∧ saidValue b!"WHOX" = none := by decide
  have n5 : saidName b!"CHANTYPES=" = b!"CHANTYPES" ∧ saidValue b!"CHANTYPES=" = some [] := by decide
  have n6 : saidName b!"LINELEN=4096" = b!"LINELEN" ∧ saidValue b!"LINELEN=4096" = some b!"4096" := by decide
  have key : ∀ name, lastSaid name (b!"soju.im/SAFERATE" :: b!"BOT=B" :: b!"CASEMAPPING=ascii" ::
      ((if cfg.title ≠ [] then [b!"NETWORK=" ++ cfg.title] else []) ++
        (b!"WHOX" :: b!"CHANTYPES=" :: b!"LINELEN=4096" :: ((if c.webpush then [b!"VAPID=" ++ c.vapid] else []) ++
          (if cfg.upload then [b!"soju.im/FILEHOST=" ++ (cfg.ingress ++ b!"/uploads")] else []))))) =
      (((((((((if cfg.upload then (if b!"SOJU.IM/FILEHOST" = name then some (some (cfg.ingress ++ b!"/uploads")) else none) else none).or
        (if c.webpush then (if b!"VAPID" = name then some (some c.vapid) else none) else none)).or
        (if b!"LINELEN" = name then some (some b!"4096") else none)).or
        (if b!"CHANTYPES" = name then some (some []) else none)).or
        (if b!"WHOX" = name then some none else none)).or
        (if cfg.title ≠ [] then (if b!"NETWORK" = name then some (some cfg.title) else none) else none)).or
        (if b!"CASEMAPPING" = name then some (some b!"ascii") else none)).or
        (if b!"BOT" = name then some (some b!"B") else none)).or
        (if b!"SOJU.IM/SAFERATE" = name then some none else none)) := by
    intro name
    have a1 : lastSaid name (if cfg.title ≠ [] then [b!"NETWORK=" ++ cfg.title] else []) =
        (if cfg.title ≠ [] then (if b!"NETWORK" = name then some (some cfg.title) else none) else none) := by
      split
      · rw [said_one, (tok_title _).1, (tok_title _).2]
      · rfl
    have a2 : lastSaid name (if c.webpush then [b!"VAPID=" ++ c.vapid] else []) =
        (if c.webpush then (if b!"VAPID" = name then some (some c.vapid) else none) else none) := by
      split
      · rw [said_one, (tok_vapid _).1, (tok_vapid _).2]
      · rfl
    have a3 : lastSaid name (if cfg.upload then [b!"soju.im/FILEHOST=" ++ (cfg.ingress ++ b!"/uploads")] else []) =
        (if cfg.upload then (if b!"SOJU.IM/FILEHOST" = name then some (some (cfg.ingress ++ b!"/uploads")) else none) else none) := by
      split
      · rw [said_one, (tok_filehost _).1, (tok_filehost _).2]
      · rfl
    rw [said_cons, said_cons, said_cons, said_append, said_cons, said_cons, said_cons, said_append, a1, a2, a3,
      n1.1, n1.2, n2.1, n2.2, n3.1, n3.2, n4.1, n4.2, n5.1, n5.2, n6.1, n6.2]
  refine ⟨?_, ?_, ?_, ?_, ?_, ?_, ?_, ?_, ?_, ?_⟩
  · rw [key]; simp
  · rw [key]; simp
  · rw [key]; simp
  · rw [key]; simp
  · rw [key]; simp
  · rw [key]; simp
  · rw [key]; simp
  · rw [key]; simp
  · rw [key]; simp
  · intro name hname
    simp only [List.mem_cons, List.not_mem_nil, or_false, not_or] at hname
    obtain ⟨h1, h2, h3, h4, h5, h6, h7, h8, h9⟩ := hname
    rw [key]
    simp [Ne.symm h1, Ne.symm h2, Ne.symm h3, Ne.symm h4, Ne.symm h5, Ne.symm h6, Ne.symm h7, Ne.symm h8, Ne.symm h9]

/-- What a client of a network is told at first of what is not the server's business: which network it is, whether it can
ask for the history (and how much at once: the limit of C53), files and push messages. -/
theorem C105_network (cfg : GrConfig) (c : GrClient) (order : List Str) (ho : order.Perm passthroughIsupport)
    (identity : List Msg) (h : AboutUser identity) (id : Nat) (conn : Option GrConn) (nick : Str)
    (hn : c.network = some (id, conn, nick)) :
    let g := greeting cfg c order identity
    told g b!"BOUNCER_NETID" = some (some (itoa id)) ∧ told g b!"SOJU.IM/SAFERATE" = some none ∧
    told g b!"CHATHISTORY" = (if c.history then some (some b!"1000") else none) ∧
    told g b!"MSGREFTYPES" = (if c.history then some (some b!"timestamp") else none) ∧
    told g b!"VAPID" = (if c.webpush then some (some c.vapid) else none) ∧
    told g b!"SOJU.IM/FILEHOST" = (if cfg.upload then some (some (cfg.ingress ++ b!"/uploads")) else none) ∧
    (conn = none → ∀ name ∈ clientFeatures, told g name = none) ∧
    (∀ uc, conn = some uc → ∀ name ∈ clientFeatures, told g name = match GoMap.get uc.is.isupport name with
      | none => if name = b!"CLIENTTAGDENY" ∧ uc.tags = false then some (some b!"*") else none
      | some v => some v) ∧
    ∀ name, name ∉ [b!"BOUNCER_NETID", b!"SOJU.IM/SAFERATE", b!"CHATHISTORY", b!"MSGREFTYPES", b!"VAPID", b!"SOJU.IM/FILEHOST"] →
      name ∉ clientFeatures → told g name = none := by
  intro g
  unfold told
  rw [told_greeting cfg c order identity h]
  have e : greetTokens cfg c order = (b!"soju.im/SAFERATE" :: (b!"BOUNCER_NETID=" ++ itoa id) ::
      ((if c.history then [b!"CHATHISTORY=1000", b!"MSGREFTYPES=timestamp"] else []) ++
        ((if c.webpush then [b!"VAPID=" ++ c.vapid] else []) ++
          (if cfg.upload then [b!"soju.im/FILEHOST=" ++ (cfg.ingress ++ b!"/uploads")] else [])))) ++
        serverTokens conn order := by
    unfold greetTokens permanentIsupport GrClient.upstream serverTokens
    have hl : itoa chatHistoryLimit.toNat = b!"1000" := by decide +kernel
    simp only [hn, hl]
    cases conn <;> simp
  have n1 : saidName b!"soju.im/SAFERATE" = b!"SOJU.IM/SAFERATE" ∧ saidValue b!"soju.im/SAFERATE" = none := by decide
  have n2 : saidName b!"CHATHISTORY=1000" = b!"CHATHISTORY" ∧ saidValue b!"CHATHISTORY=1000" = some b!"1000" := by decide
  have n3 : saidName b!"MSGREFTYPES=timestamp" = b!"MSGREFTYPES" ∧ saidValue b!"MSGREFTYPES=timestamp" = some b!"timestamp" := by decide
  have n4 : saidName b!"CLIENTTAGDENY=*" = b!"CLIENTTAGDENY" ∧ saidValue b!"CLIENTTAGDENY=*" = some b!"*" := by decide
  have own : ∀ name, lastSaid name (b!"soju.im/SAFERATE" :: (b!"BOUNCER_NETID=" ++ itoa id) ::
      ((if c.history then [b!"CHATHISTORY=1000", b!"MSGREFTYPES=timestamp"] else []) ++
        ((if c.webpush then [b!"VAPID=" ++ c.vapid] else []) ++
          (if cfg.upload then [b!"soju.im/FILEHOST=" ++ (cfg.ingress ++ b!"/uploads")] else [])))) =
      (((((if cfg.upload then (if b!"SOJU.IM/FILEHOST" = name then some (some (cfg.ingress ++ b!"/uploads")) else none) else none).or
        (if c.webpush then (if b!"VAPID" = name then some (some c.vapid) else none) else none)).or
        (if c.history then ((if b!"MSGREFTYPES" = name then some (some b!"timestamp") else none).or
          (if b!"CHATHISTORY" = name then some (some b!"1000") else none)) else none)).or
        (if b!"BOUNCER_NETID" = name then some (some (itoa id)) else none)).or
        (if b!"SOJU.IM/SAFERATE" = name then some none else none)) := by
    intro name
    have a1 : lastSaid name (if c.history then [b!"CHATHISTORY=1000", b!"MSGREFTYPES=timestamp"] else []) =
        (if c.history then ((if b!"MSGREFTYPES" = name then some (some b!"timestamp") else none).or
          (if b!"CHATHISTORY" = name then some (some b!"1000") else none)) else none) := by
      split
      · rw [said_cons, said_one, n2.1, n2.2, n3.1, n3.2]
      · rfl
    have a2 : lastSaid name (if c.webpush then [b!"VAPID=" ++ c.vapid] else []) =
        (if c.webpush then (if b!"VAPID" = name then some (some c.vapid) else none) else none) := by
      split
      · rw [said_one, (tok_vapid _).1, (tok_vapid _).2]
      · rfl
    have a3 : lastSaid name (if cfg.upload then [b!"soju.im/FILEHOST=" ++ (cfg.ingress ++ b!"/uploads")] else []) =
        (if cfg.upload then (if b!"SOJU.IM/FILEHOST" = name then some (some (cfg.ingress ++ b!"/uploads")) else none) else none) := by
      split
      · rw [said_one, (tok_filehost _).1, (tok_filehost _).2]
      · rfl
    rw [said_cons, said_cons, said_append, said_append, a1, a2, a3, n1.1, n1.2, (tok_netid _).1, (tok_netid _).2]
  have server : ∀ name, lastSaid name (serverTokens conn order) = serverFeature conn name := by
    intro name
    unfold serverTokens serverFeature
    cases conn with
    | none => rfl
    | some uc =>
      dsimp only
      rw [said_append, said_welcome uc.is order (ho.nodup_iff.2 features_ok.1)
        (fun k hk => features_ok.2 k (ho.mem_iff.1 hk))]
      simp only [ho.mem_iff, features_mem]
      have a4 : lastSaid name (if (GoMap.get uc.is.isupport b!"CLIENTTAGDENY").isNone && !uc.tags then [b!"CLIENTTAGDENY=*"] else []) =
          (if (GoMap.get uc.is.isupport b!"CLIENTTAGDENY").isNone && !uc.tags then
            (if b!"CLIENTTAGDENY" = name then some (some b!"*") else none) else none) := by
        split
        · rw [said_one, n4.1, n4.2]
        · rfl
      rw [a4]
      by_cases hf : name ∈ clientFeatures
      · rw [if_pos hf, if_pos hf]
        cases hg : GoMap.get uc.is.isupport name with
        | some v => rfl
        | none =>
          by_cases ht : name = b!"CLIENTTAGDENY"
          · subst ht
            rw [hg]
            cases uc.tags <;> simp
          · simp [ht, Ne.symm ht]
      · rw [if_neg hf, if_neg hf]
        have ht : name ≠ b!"CLIENTTAGDENY" := by rintro rfl; exact hf (by decide)
        simp [Ne.symm ht]
  have total : ∀ name, lastSaid name (greetTokens cfg c order) = _ := fun name => by
    rw [e, said_append, server name, own name]
  have outside : ∀ name, name ∉ clientFeatures → serverFeature conn name = none := by
    intro name hf
    unfold serverFeature
    cases conn with
    | none => rfl
    | some uc => dsimp only; rw [if_neg hf]
  have inside : ∀ name ∈ clientFeatures, name ∉ [b!"BOUNCER_NETID", b!"SOJU.IM/SAFERATE", b!"CHATHISTORY", b!"MSGREFTYPES",
      b!"VAPID", b!"SOJU.IM/FILEHOST"] := by decide +kernel
  have ownNone : ∀ name, name ∉ [b!"BOUNCER_NETID", b!"SOJU.IM/SAFERATE", b!"CHATHISTORY", b!"MSGREFTYPES",
      b!"VAPID", b!"SOJU.IM/FILEHOST"] → lastSaid name (b!"soju.im/SAFERATE" :: (b!"BOUNCER_NETID=" ++ itoa id) ::
      ((if c.history then [b!"CHATHISTORY=1000", b!"MSGREFTYPES=timestamp"] else []) ++
        ((if c.webpush then [b!"VAPID=" ++ c.vapid] else []) ++
          (if cfg.upload then [b!"soju.im/FILEHOST=" ++ (cfg.ingress ++ b!"/uploads")] else [])))) = none := by
    intro name hname
    simp only [List.mem_cons, List.not_mem_nil, or_false, not_or] at hname
    obtain ⟨h1, h2, h3, h4, h5, h6⟩ := hname
    rw [own]
    simp [Ne.symm h1, Ne.symm h2, Ne.symm h3, Ne.symm h4, Ne.symm h5, Ne.symm h6]
  refine ⟨?_, ?_, ?_, ?_, ?_, ?_, ?_, ?_, ?_⟩
  · rw [total, outside _ (by decide +kernel)]; simp
  · rw [total, outside _ (by decide +kernel)]; simp
  · rw [total, outside _ (by decide +kernel)]; simp
  · rw [total, outside _ (by decide +kernel)]; simp
  · rw [total, outside _ (by decide +kernel)]; simp
  · rw [total, outside _ (by decide +kernel)]; simp
  · intro hc name hf
    rw [e, said_append, server, ownNone name (inside name hf)]
    subst hc
    rfl
  · intro uc hc name hf
    rw [e, said_append, server, ownNone name (inside name hf)]
    subst hc
    unfold serverFeature
    dsimp only
    rw [if_pos hf]
    simp
  · intro name h1 h2
    rw [e, said_append, server, ownNone name h1, outside name h2]
    rfl

private theorem relay_tokens (cm : CaseMapping) (ops1 ops2 : List IsOp) (h : ∀ t ∈ tokensOf (ops1 ++ ops2), PlainToken t)
    (hb : ∀ t ∈ tokensOf ops2, 92 ∉ t) :
    toldTokens (isRelay (isRun cm ops1) ops2) = (tokensOf ops2).filter (fun t => decide (saidName t ∈ clientFeatures)) := by
  induction ops2 generalizing ops1 with
  | nil => rfl
  | cons o ops2 ih =>
    have ht : ∀ a b : List IsOp, tokensOf (a ++ b) = tokensOf a ++ tokensOf b := by
      intro a b; unfold tokensOf; rw [List.flatMap_append]
    have hs : isRun cm (ops1 ++ [o]) = isStep (isRun cm ops1) o := by unfold isRun; rw [List.foldl_append]; rfl
    have hc : tokensOf (o :: ops2) = tokensOf [o] ++ tokensOf ops2 := ht [o] ops2
    have ih := ih (ops1 ++ [o]) (by rw [List.append_assoc]; exact h) (fun t hm => hb t (by rw [hc]; simp [hm]))
    rw [hs] at ih
    rw [hc, List.filter_append]
    cases o with
    | motd => exact ih
    | isupport l =>
      have hl : tokensOf [IsOp.isupport l] = l := by simp [tokensOf]
      rw [hl]
      show toldTokens ((handleIsupport (isRun cm ops1) l).2 ++ _) = _
      rw [told_append]
      have ih : toldTokens (isRelay (handleIsupport (isRun cm ops1) l).1 ops2) = _ := ih
      rw [ih]
      congr 1
      have hp1 : ∀ t ∈ tokensOf ops1, PlainToken t := fun t hm => h t (by rw [ht]; simp [hm])
      have hpl : ∀ t ∈ l, PlainToken t := fun t hm => h t (by rw [ht, hc, hl]; simp [hm])
      have hbl : ∀ t ∈ l, 92 ∉ t := fun t hm => hb t (by rw [hc, hl]; simp [hm])
      have hr := C48_relayed_partial cm ops1 hp1 l hpl hbl
      have hcmd : ∀ m ∈ (handleIsupport (isRun cm ops1) l).2, m.command = b!"005" := by
        intro m hm
        unfold handleIsupport at hm
        dsimp only at hm
        split at hm
        · cases hm
        · exact ((C08_isupport_lossless _).2 m hm).1
      have hd : ∀ t ∈ l, isupportDecode t = t := by
        intro t htl
        have : ∀ t : Str, 92 ∉ t → isupportDecode t = t := by
          intro t ht
          induction t with
          | nil => unfold isupportDecode; rfl
          | cons c t ih =>
            have hc : c ≠ 92 := by rintro rfl; simp at ht
            rw [isupportDecode_other c t hc, ih (fun hm => ht (by simp [hm]))]
        exact this t (hbl t htl)
      have hm : l.map isupportDecode = l := by
        conv => rhs; rw [← List.map_id l]
        exact List.map_congr_left (fun t ht => hd t ht)
      rw [hm, List.map_flatMap] at hr
      unfold toldTokens
      rw [List.filter_eq_self.2 (fun m hm => by simpa using hcmd m hm)]
      exact hr

private theorem said_filter (name : Str) (l : List Str) (p : Str → Bool) (h : ∀ t, saidName t = name → p t = true) :
    lastSaid name (l.filter p) = lastSaid name l := by
  induction l with
  | nil => rfl
  | cons t l ih =>
    rw [said_cons]
    cases hp : p t with
    | true => rw [List.filter_cons_of_pos hp, said_cons, ih]
    | false =>
      rw [List.filter_cons_of_neg (by simp [hp]), ih]
      by_cases hs : saidName t = name
      · rw [h t hs] at hp; cases hp
      · rw [if_neg hs]; simp

/-- A client that logs in while the network is connected knows, for every feature of the server it may know, what the
server said last on this connection, before or after.  Missing: negated tokens and escape sequences (C48), and a server
that the bouncer has connected to again (`C105_reconnect_violated`). -/
theorem C105_known_partial (cfg : GrConfig) (c : GrClient) (order : List Str) (ho : order.Perm passthroughIsupport)
    (identity : List Msg) (h : AboutUser identity) (id : Nat) (uc : GrConn) (nick : Str)
    (hn : c.network = some (id, some uc, nick)) (cm : CaseMapping) (ops1 ops2 : List IsOp) (hs : uc.is = isRun cm ops1)
    (hp : ∀ t ∈ tokensOf (ops1 ++ ops2), PlainToken t) (hb : ∀ t ∈ tokensOf ops2, 92 ∉ t) (name : Str)
    (hf : name ∈ clientFeatures) :
    told (greeting cfg c order identity ++ isRelay uc.is ops2) name = match lastSaid name (tokensOf (ops1 ++ ops2)) with
      | none => if name = b!"CLIENTTAGDENY" ∧ uc.tags = false then some (some b!"*") else none
      | some v => some v := by
  have ht : tokensOf (ops1 ++ ops2) = tokensOf ops1 ++ tokensOf ops2 := by unfold tokensOf; rw [List.flatMap_append]
  have h1 := (C105_network cfg c order ho identity h id (some uc) nick hn).2.2.2.2.2.2.2.1 uc rfl name hf
  have h2 : GoMap.get uc.is.isupport name = lastSaid name (tokensOf ops1) := by
    rw [hs]
    exact (C48_tracked_partial cm ops1 (fun t hm => hp t (by rw [ht]; simp [hm]))).1 name
  have h3 := relay_tokens cm ops1 ops2 hp hb
  unfold told at h1 ⊢
  rw [told_append, said_append, hs, h3, said_filter name _ _ (by intro t e; simpa [e] using hf), ht, said_append, h1, h2]
  cases lastSaid name (tokensOf ops2) <;> rfl

/-- Every message of the greeting names the client it is for, except for those about the features and the message of the
day. -/
theorem C105_addressed_partial (cfg : GrConfig) (c : GrClient) (order : List Str) (m : Msg)
    (hm : m ∈ greeting cfg c order []) (hc : m.command ∉ [b!"005", b!"375", b!"372", b!"376"]) : m.params.head? = some c.nick := by
  rw [greeting_eq] at hm
  simp only [List.mem_append, List.not_mem_nil, false_or] at hm
  rcases hm with hm | hm | hm | hm
  · simp only [head1, List.mem_cons, List.not_mem_nil, or_false] at hm
    rcases hm with rfl | rfl | rfl <;> rfl
  · exact absurd ((C08_isupport_lossless _).2 m hm).1 (by intro e; exact hc (by rw [e]; decide))
  · exact (modes_cmd c m hm).2
  · unfold greetMotd at hm
    split at hm
    · unfold generateMOTD at hm
      exfalso
      apply hc
      simp only [List.mem_append, List.mem_singleton, List.mem_map] at hm
      rcases hm with (rfl | ⟨l, -, rfl⟩) | rfl <;> simp
    · rw [List.mem_singleton] at hm
      subst hm
      rfl

private def grCfg : GrConfig := ⟨b!"irc.example.org", b!"My bouncer", b!"Hello\n\nBye", true, b!"https://example.org"⟩
private def grConn : GrConn := ⟨isRun .rfc1459 [.isupport [b!"WHOX", b!"NETWORK=Net"], .motd], false, b!"al_", b!"i"⟩
private def grNet : GrClient := ⟨some (7, some grConn, b!"al"), b!"al", true, true, false, []⟩
private def grHome : GrClient := ⟨none, b!"al", true, true, false, []⟩

/-- Those are sent to `*`, as if the client had no name. -/
theorem C105_addressed_violated : ∃ (cfg : GrConfig) (c : GrClient) (order : List Str) (m : Msg),
    m ∈ greeting cfg c order [] ∧ m.command = b!"005" ∧ m.params.head? ≠ some c.nick := by
  refine ⟨grCfg, grHome, [], ⟨b!"005", b!"*" :: (greetTokens grCfg grHome []).map isupportEncode ++ [b!"are supported"]⟩, ?_, rfl, by decide⟩
  have : generateIsupport (greetTokens grCfg grHome []) =
      [⟨b!"005", b!"*" :: (greetTokens grCfg grHome []).map isupportEncode ++ [b!"are supported"]⟩] := by
    rw [generateIsupport]
    rw [if_neg (by decide), if_neg (by decide)]
  rw [greeting_eq, this]
  simp

/-- A client that stays while the bouncer connects to the server again goes on believing in features the server no longer
has: this one has been told of no feature on the new connection. -/
theorem C105_reconnect_violated : ∃ (cfg : GrConfig) (c : GrClient) (order : List Str) (ops : List IsOp),
    order.Perm passthroughIsupport ∧ (∀ t ∈ tokensOf ops, PlainToken t) ∧ IsOp.motd ∈ ops ∧
    lastSaid b!"WHOX" (tokensOf ops) = none ∧
    told (greeting cfg c order [] ++ isRelay { casemap := .rfc1459 } ops) b!"WHOX" = some none := by
  refine ⟨grCfg, grNet, passthroughIsupport, [.isupport [b!"NETWORK=Net"], .motd], List.Perm.refl _, ?_, by decide, by decide, ?_⟩
  · intro t ht
    simp only [tokensOf, List.flatMap_cons, List.flatMap_nil, List.append_nil, List.mem_singleton] at ht
    subst ht
    exact ⟨by decide, fun h => absurd h (by decide), fun h => absurd h (by decide)⟩
  · unfold told
    rw [told_append, told_greeting _ _ _ _ (by intro m hm; cases hm), said_append]
    have h1 : toldTokens (isRelay { casemap := .rfc1459 } [.isupport [b!"NETWORK=Net"], .motd]) = [b!"NETWORK=Net"] := by
      have := relay_tokens .rfc1459 [] [.isupport [b!"NETWORK=Net"], .motd] (by
        intro t ht
        simp only [tokensOf, List.flatMap_cons, List.flatMap_nil, List.append_nil, List.nil_append, List.mem_singleton] at ht
        subst ht
        exact ⟨by decide, fun h => absurd h (by decide), fun h => absurd h (by decide)⟩) (by decide)
      exact this.trans (by decide)
    rw [h1]
    decide +kernel

example : AboutUser [⟨b!"396", [b!"al", b!"h", b!"is now your visible host"]⟩] ∧
    motdLines (greetMotd grCfg grHome) = [b!"Hello", [], b!"Bye"] ∧
    passthroughIsupport.Perm passthroughIsupport ∧
    greetTokens grCfg grNet passthroughIsupport = [b!"soju.im/SAFERATE", b!"BOUNCER_NETID=7", b!"CHATHISTORY=1000",
      b!"MSGREFTYPES=timestamp", b!"soju.im/FILEHOST=https://example.org/uploads", b!"CLIENTTAGDENY=*", b!"NETWORK=Net", b!"WHOX"] := by
  refine ⟨?_, by decide, List.Perm.refl _, by decide +kernel⟩
  intro m hm
  rw [List.mem_singleton] at hm
  subst hm
  decide

end Verif.Props
