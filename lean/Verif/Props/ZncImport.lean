import Verif.Proof.ZncLoops

/-! # C90: the import of a ZNC configuration -/

namespace Verif.Props
open Verif.Model Verif.Spec Verif.Proof

/-- A database made by calls whose times have four digits for the year and whose connect commands can be kept, in which
the networks of each user have distinct names. -/
structure ImportBase (ops : List PdOp) : Prop where
  times : SqTimesOK ops
  commands : PdCommandsOK ops
  names : ∀ user, ((sqListNetworks (sqRun ops).1 user).map NetRec.getName).Nodup

private theorem base_good (ops : List PdOp) (h : ImportBase ops) : ZGood (sqKept (sqRun ops).2) (sqRun ops).1 :=
  ⟨sq_rel ops, sq_user_times ops h.times, sq_net_commands ops h.commands,
    keys_of_lists (sq_rel ops) (sq_net_commands ops h.commands) h.names⟩

/-- C90: after the import, each user chosen is in the database, an administrator or not as written in the file; all other
settings of a user that was there before, the password for example, and the identifier have not changed. -/
theorem C90_users (ops : List PdOp) (hb : ImportBase ops) (esc : Str → Str) (onlyUser onlyNet : Str → Bool) (now : Int)
    (root : ZncSection) (hi : Importable onlyUser onlyNet root (sqRun ops).1) (db : SqDb)
    (h : zncImport esc onlyUser onlyNet now root (sqRun ops).1 = (db, true)) (s : ZncSection)
    (hs : UserSection onlyUser root s) : UserMerged s (bookUser (sqRun ops).1 s.name) (bookUser db s.name) := by
  obtain ⟨_, _, h1, _⟩ := import_good (base_good ops hb) esc onlyUser onlyNet now root hi true h
  exact (h1 rfl s hs).1

/-- C90, part: after the import, each network chosen is in the database with the server, the password, the nickname, the
user name and the real name written in the file, those of the user's section where the network's has none; other settings
of a network that was there before have not changed.  Missing: networks of the database without a name, see
`C90_unnamed_violated`. -/
theorem C90_networks_partial (ops : List PdOp) (hb : ImportBase ops) (esc : Str → Str) (onlyUser onlyNet : Str → Bool)
    (now : Int) (root : ZncSection) (hi : Importable onlyUser onlyNet root (sqRun ops).1) (db : SqDb)
    (h : zncImport esc onlyUser onlyNet now root (sqRun ops).1 = (db, true)) (s t : ZncSection)
    (hs : UserSection onlyUser root s) (ht : NetSection onlyNet s t) :
    NetMerged esc s t (bookNet (sqRun ops).1 s.name t.name) (bookNet db s.name t.name) := by
  obtain ⟨_, _, h1, _⟩ := import_good (base_good ops hb) esc onlyUser onlyNet now root hi true h
  exact ((h1 rfl s hs).2 t ht).1

/-- C90: after the import, each channel of these networks that is not disabled is in the database with the key written in
the file, detached or not as written; its other settings have not changed.  The other channels of these networks are as
before. -/
theorem C90_channels (ops : List PdOp) (hb : ImportBase ops) (esc : Str → Str) (onlyUser onlyNet : Str → Bool)
    (now : Int) (root : ZncSection) (hi : Importable onlyUser onlyNet root (sqRun ops).1) (db : SqDb)
    (h : zncImport esc onlyUser onlyNet now root (sqRun ops).1 = (db, true)) (s t : ZncSection)
    (hs : UserSection onlyUser root s) (ht : NetSection onlyNet s t) :
    (∀ c, ChanSection t c →
      ChanMerged c (bookChan (sqRun ops).1 s.name t.name c.name) (bookChan db s.name t.name c.name)) ∧
    ∀ z, (∀ c, ChanSection t c → c.name ≠ z) → bookChan db s.name t.name z = bookChan (sqRun ops).1 s.name t.name z := by
  obtain ⟨_, _, h1, _⟩ := import_good (base_good ops hb) esc onlyUser onlyNet now root hi true h
  have := ((h1 rfl s hs).2 t ht).2
  exact ⟨fun c hc => this.1 c hc.1 hc.2, fun z hz => this.2 z (fun c hc hd => hz c ⟨hc, hd⟩)⟩

/-- C90: users and networks that are not in the file or are not chosen are as before, with their channels, also if the
import has ended with an error. -/
theorem C90_rest (ops : List PdOp) (hb : ImportBase ops) (esc : Str → Str) (onlyUser onlyNet : Str → Bool)
    (now : Int) (root : ZncSection) (hi : Importable onlyUser onlyNet root (sqRun ops).1) (db : SqDb) (done : Bool)
    (h : zncImport esc onlyUser onlyNet now root (sqRun ops).1 = (db, done)) :
    (∀ x, (∀ s, UserSection onlyUser root s → s.name ≠ x) → bookUser db x = bookUser (sqRun ops).1 x) ∧
    ∀ x y, (∀ s t, UserSection onlyUser root s → NetSection onlyNet s t → s.name = x → t.name ≠ y) →
      bookNet db x y = bookNet (sqRun ops).1 x y ∧ ∀ z, bookChan db x y z = bookChan (sqRun ops).1 x y z := by
  obtain ⟨_, _, _, h2⟩ := import_good (base_good ops hb) esc onlyUser onlyNet now root hi done h
  exact h2

private theorem user_twice {s : ZncSection} {a b c : Option PdUserRec} (h1 : UserMerged s a b) (h2 : UserMerged s b c) :
    c = b := by
  obtain ⟨i, e1, -⟩ := h1
  obtain ⟨j, e2, hj⟩ := h2
  have hj := hj _ e1
  rw [e2, e1, hj]
  rfl

private theorem net_twice {esc : Str → Str} {s t : ZncSection} {a b c : Option NetRec} (h1 : NetMerged esc s t a b)
    (h2 : NetMerged esc s t b c) : c = b := by
  obtain ⟨addr, pass, hsv, i, e1, -⟩ := h1
  obtain ⟨addr2, pass2, hsv2, j, e2, hj⟩ := h2
  rw [hsv] at hsv2
  simp only [Option.some.injEq, Prod.mk.injEq] at hsv2
  have hj := hj _ e1
  rw [e2, e1, hj, ← hsv2.1, ← hsv2.2]
  rfl

private theorem chan_twice {s : ZncSection} {a b c : Option ChanRec} (h1 : ChanMerged s a b) (h2 : ChanMerged s b c) :
    c = b := by
  obtain ⟨i, e1, -⟩ := h1
  obtain ⟨j, e2, hj⟩ := h2
  have hj := hj _ e1
  rw [e2, e1, hj]
  rfl

/-- C90: importing the same file a second time changes nothing. -/
theorem C90_twice (ops : List PdOp) (hb : ImportBase ops) (esc : Str → Str) (onlyUser onlyNet : Str → Bool)
    (now now2 : Int) (root : ZncSection) (hi : Importable onlyUser onlyNet root (sqRun ops).1) (db db2 : SqDb)
    (h : zncImport esc onlyUser onlyNet now root (sqRun ops).1 = (db, true))
    (h2 : zncImport esc onlyUser onlyNet now2 root db = (db2, true)) (x y z : Str) :
    bookUser db2 x = bookUser db x ∧ bookNet db2 x y = bookNet db x y ∧ bookChan db2 x y z = bookChan db x y z := by
  obtain ⟨k1, g1, a1, -, -⟩ := import_good (base_good ops hb) esc onlyUser onlyNet now root hi true h
  have hi2 : Importable onlyUser onlyNet root db := by
    refine ⟨hi.users, hi.networks, hi.channels, hi.name, fun s t hs ht n hn => ?_⟩
    obtain ⟨addr, pass, -, i, e, -⟩ := ((a1 rfl s hs).2 t ht).1
    rw [hn] at e
    rw [Option.some.inj e]
    cases hold : bookNet (sqRun ops).1 s.name t.name with
    | none => exact hi.name s t hs ht
    | some o => exact hi.named s t hs ht o hold
  obtain ⟨k2, g2, b1, b2, b3⟩ := import_good g1 esc onlyUser onlyNet now2 root hi2 true h2
  refine ⟨?_, ?_⟩
  · by_cases hx : ∃ s, UserSection onlyUser root s ∧ s.name = x
    · obtain ⟨s, hs, rfl⟩ := hx
      exact user_twice (a1 rfl s hs).1 (b1 rfl s hs).1
    · exact b2 x (fun s hs e => hx ⟨s, hs, e⟩)
  · by_cases hx : ∃ s t, UserSection onlyUser root s ∧ NetSection onlyNet s t ∧ s.name = x ∧ t.name = y
    · obtain ⟨s, t, hs, ht, rfl, rfl⟩ := hx
      obtain ⟨n1, c1⟩ := (a1 rfl s hs).2 t ht
      obtain ⟨n2, c2⟩ := (b1 rfl s hs).2 t ht
      refine ⟨net_twice n1 n2, ?_⟩
      by_cases hz : ∃ c, ChanSection t c ∧ c.name = z
      · obtain ⟨c, hc, rfl⟩ := hz
        exact chan_twice (c1.1 c hc.1 hc.2) (c2.1 c hc.1 hc.2)
      · exact c2.2 z (fun c hc hd e => hz ⟨c, ⟨hc, hd⟩, e⟩)
    · have := b3 x y (fun s t hs ht e1 e2 => hx ⟨s, t, hs, ht, e1, e2⟩)
      exact ⟨this.1, this.2 z⟩

/-! ## A case -/

/-- A database with the user `alice`, the network `libera` and the channel `#soju`. -/
def exZncOps : List PdOp :=
  [.storeUser 0 { username := b!"alice", password := b!"hash" },
   .storeNetwork 1 { name := b!"libera", addr := b!"ircs://old", nick := b!"a", connectCommands := [b!"PING x"] },
   .storeChannel 1 ⟨0, b!"#soju", [], true, [], 2, 0, 5000000000, 0⟩,
   .storeNetwork 1 { name := b!"oftc", addr := b!"irc.oftc.net" }]

private def exZncChan : ZncSection := .mk b!"Chan" b!"#soju" [(b!"Key", b!"k")] []

private def exZncNet : ZncSection :=
  .mk b!"Network" b!"libera" [(b!"Server", b!"irc.libera.chat +6697 pw"), (b!"Ident", b!"id")] [exZncChan]

private def exZncUser : ZncSection := .mk b!"User" b!"alice" [(b!"Nick", b!"al"), (b!"Admin", b!"true")] [exZncNet]

private def exZncBob : ZncSection := .mk b!"User" b!"bob" [] []

/-- A file with the users `alice` and `bob`. -/
def exZncRoot : ZncSection := .mk [] [] [(b!"Version", b!"1.8")] [exZncUser, exZncBob]

private theorem ex_users : zncEach exZncRoot b!"User" = [exZncUser, exZncBob] := rfl

private theorem ex_nets {s t : ZncSection} (hs : UserSection (fun _ => true) exZncRoot s) (ht : NetSection (fun _ => true) s t) :
    s = exZncUser ∧ t = exZncNet := by
  have h1 := hs.1
  rw [ex_users] at h1
  simp only [List.mem_cons, List.not_mem_nil, or_false] at h1
  rcases h1 with rfl | rfl
  · have h2 := ht.1
    rw [show zncEach exZncUser b!"Network" = [exZncNet] from rfl] at h2
    exact ⟨rfl, List.mem_singleton.1 h2⟩
  · have h2 := ht.1
    rw [show zncEach exZncBob b!"Network" = [] from rfl] at h2
    cases h2

example : ImportBase exZncOps ∧ Importable (fun _ => true) (fun _ => true) exZncRoot (sqRun exZncOps).1 ∧
    (zncImport id (fun _ => true) (fun _ => true) 0 exZncRoot (sqRun exZncOps).1).2 = true ∧
    (bookUser (zncImport id (fun _ => true) (fun _ => true) 0 exZncRoot (sqRun exZncOps).1).1 b!"alice").map (·.password) =
      some b!"hash" ∧
    (bookNet (zncImport id (fun _ => true) (fun _ => true) 0 exZncRoot (sqRun exZncOps).1).1 b!"alice" b!"libera").map
      (fun n => (n.addr, n.pass, n.nick, n.username, n.connectCommands)) =
      some (b!"ircs://irc.libera.chat:6697", b!"pw", b!"al", b!"id", [b!"PING x"]) ∧
    (bookChan (zncImport id (fun _ => true) (fun _ => true) 0 exZncRoot (sqRun exZncOps).1).1 b!"alice" b!"libera" b!"#soju").map
      (fun c => (c.key, c.detached, c.detachAfter)) = some (b!"k", false, 5000000000) := by
  refine ⟨⟨?_, ?_, ?_⟩, ⟨?_, ?_, ?_, ?_, ?_⟩, ?_, ?_, ?_, ?_⟩
  · refine ⟨?_, ?_, ?_⟩
    · intro now r h
      simp only [exZncOps, List.mem_cons, List.not_mem_nil, or_false, PdOp.storeUser.injEq, reduceCtorEq] at h
      obtain ⟨rfl, rfl⟩ := h
      unfold InYears dayNanos
      decide
    · intro net r h
      simp [exZncOps] at h
    · intro now user net s h
      simp [exZncOps] at h
  · intro user r h
    simp only [exZncOps, List.mem_cons, List.not_mem_nil, or_false, PdOp.storeNetwork.injEq, reduceCtorEq, false_or] at h
    rcases h with ⟨rfl, rfl⟩ | ⟨rfl, rfl⟩
    · refine ⟨by decide, fun s hs a b e => ?_⟩
      rw [List.mem_singleton.1 hs] at e
      have : (13 : Nat) ∈ b!"PING x" := by rw [e]; simp
      revert this
      decide
    · exact ⟨by decide, fun s hs => (nomatch hs)⟩
  · intro user
    by_cases h : user = 1
    · rw [h]
      decide +kernel
    · have : sqListNetworks (sqRun exZncOps).1 user = [] := by
        have e : (sqRun exZncOps).1.networks.map (·.user) = [1, 1] := by decide +kernel
        unfold sqListNetworks dbListNetworks
        rw [List.filter_eq_nil_iff.2, List.map_nil]
        intro r hr
        have : r.user ∈ (sqRun exZncOps).1.networks.map (·.user) := List.mem_map_of_mem hr
        rw [e] at this
        simp only [List.mem_cons, List.not_mem_nil, or_false, or_self] at this
        simp [this, Ne.symm h]
      rw [this]
      exact List.nodup_nil
  · rw [ex_users]; decide
  · intro s hs
    have h1 := hs.1
    rw [ex_users] at h1
    simp only [List.mem_cons, List.not_mem_nil, or_false] at h1
    rcases h1 with rfl | rfl
    · rw [show zncEach exZncUser b!"Network" = [exZncNet] from rfl]; decide
    · rw [show zncEach exZncBob b!"Network" = [] from rfl]; decide
  · intro s t hs ht
    rw [(ex_nets hs ht).2, show zncEach exZncNet b!"Chan" = [exZncChan] from rfl]
    decide
  · intro s t hs ht
    rw [(ex_nets hs ht).2]
    decide
  · intro s t hs ht n hn
    rw [(ex_nets hs ht).1, (ex_nets hs ht).2] at hn
    have : (bookNet (sqRun exZncOps).1 exZncUser.name exZncNet.name).map (·.name) = some b!"libera" := by decide +kernel
    rw [hn] at this
    rw [show n.name = b!"libera" from Option.some.inj this]
    decide
  all_goals decide +kernel

/-! ## Where the code does not do it -/

/-- C90: a network of the database without a name, which is known by its address, gets another address if the file has a
network with this name: after the import there is no network with the name of the section. -/
theorem C90_unnamed_violated :
    (zncImport id (fun _ => true) (fun _ => true) 0
      (.mk [] [] [] [.mk b!"User" b!"alice" [] [.mk b!"Network" b!"irc.libera.chat" [(b!"Server", b!"irc.libera.chat +6697")] []]])
      (sqRun [.storeUser 0 { username := b!"alice" }, .storeNetwork 1 { addr := b!"irc.libera.chat" }]).1).2 = true ∧
    bookNet (zncImport id (fun _ => true) (fun _ => true) 0
      (.mk [] [] [] [.mk b!"User" b!"alice" [] [.mk b!"Network" b!"irc.libera.chat" [(b!"Server", b!"irc.libera.chat +6697")] []]])
      (sqRun [.storeUser 0 { username := b!"alice" }, .storeNetwork 1 { addr := b!"irc.libera.chat" }]).1).1
      b!"alice" b!"irc.libera.chat" = none := by
  constructor <;> decide +kernel

/-- C90: an import that ends with an error has changed the database: the first of two sections about the same new user has
been stored, the second is refused. -/
theorem C90_stops_violated :
    (zncImport id (fun _ => true) (fun _ => true) 0 (.mk [] [] [] [.mk b!"User" b!"alice" [] [], .mk b!"User" b!"alice" [] []]) {}).2 =
      false ∧
    (bookUser (zncImport id (fun _ => true) (fun _ => true) 0
      (.mk [] [] [] [.mk b!"User" b!"alice" [] [], .mk b!"User" b!"alice" [] []]) {}).1 b!"alice").isSome = true := by
  constructor <;> decide +kernel

/-- C90: two networks of a user on the same server with the same nickname, which ZNC allows, are not both imported. -/
theorem C90_same_server_violated :
    (zncImport id (fun _ => true) (fun _ => true) 0 (.mk [] [] [] [.mk b!"User" b!"alice" [(b!"Nick", b!"al")]
      [.mk b!"Network" b!"one" [(b!"Server", b!"irc.libera.chat +6697 user1:pw")] [],
       .mk b!"Network" b!"two" [(b!"Server", b!"irc.libera.chat +6697 user2:pw")] []]]) {}).2 = false ∧
    (bookNet (zncImport id (fun _ => true) (fun _ => true) 0 (.mk [] [] [] [.mk b!"User" b!"alice" [(b!"Nick", b!"al")]
      [.mk b!"Network" b!"one" [(b!"Server", b!"irc.libera.chat +6697 user1:pw")] [],
       .mk b!"Network" b!"two" [(b!"Server", b!"irc.libera.chat +6697 user2:pw")] []]]) {}).1 b!"alice" b!"two") = none := by
  constructor <;> decide +kernel

/-- C90: without options everything in the file is chosen, with options only what they name. -/
theorem C90_chosen (options : List Str) (name : Str) : zncChosen options name = true ↔ options = [] ∨ name ∈ options := by
  unfold zncChosen
  simp

end Verif.Props
