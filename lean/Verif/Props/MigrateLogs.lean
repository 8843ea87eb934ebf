import Verif.Model.MigrateLogs
import Verif.Props.ZncLog
import Verif.Props.MsgDb

/-! # C91: migrate-logs moves the history of log files to the database -/

namespace Verif.Props
open Verif.Model Verif.Spec Verif.Proof

/-! ## Specification -/

/-- Something that was logged: what somebody did, with its recipient, and the time of day. -/
structure LogEntry where
  event : Event
  src : Source
  target : Str
  h : Nat
  mi : Nat
  s : Nat
deriving DecidableEq, Repr

/-- The line that was written (msgstore/fs.go:139-208). -/
def LogEntry.line (e : LogEntry) : Str :=
  marshalLine ⟨e.src, e.event.command, e.event.params e.target⟩ e.h e.mi e.s

/-- A date: year, month and day. -/
abbrev LogDate := Nat × Nat × Nat

/-- The name of the file of a day (msgstore/fs.go:113-117). -/
def dayName (d : LogDate) : Str :=
  padDec 4 d.1 ++ (b!"-" ++ (padDec 2 d.2.1 ++ (b!"-" ++ (padDec 2 d.2.2 ++ b!".log"))))

/-- A conversation in the logs: the name of its directory and its days. -/
structure LogConv where
  name : Str
  days : List (LogDate × List LogEntry)
deriving DecidableEq, Repr

/-- The directory of a conversation: a file for each day, in any order. -/
def LogConv.dir (c : LogConv) : Str × List (Str × Str) :=
  (c.name, c.days.map (fun d => (dayName d.1, d.2.flatMap (fun e => e.line ++ [10]))))

/-- An earlier day. -/
def Earlier (d d' : LogDate) : Prop :=
  d.1 < d'.1 ∨ (d.1 = d'.1 ∧ (d.2.1 < d'.2.1 ∨ (d.2.1 = d'.2.1 ∧ d.2.2 < d'.2.2)))

/-- What is logged: well-formed events of an IRC connection (as in C15), on lines that are not too long, at instants
the database can keep. -/
structure EntryOK (clock : LogDate → Nat × Nat × Nat → Int) (d : LogDate) (e : LogEntry) : Prop where
  wf : e.event.WF
  name : 32 ∉ e.src.name
  user : 32 ∉ e.src.user ∧ 64 ∉ e.src.user
  host : 32 ∉ e.src.host
  kind : e.src.name ≠ b!"Joins:" ∧ e.src.name ≠ b!"Parts:" ∧ e.src.name ≠ b!"Quits:"
  time : e.h < 24 ∧ e.mi < 60 ∧ e.s < 60
  plain : 10 ∉ e.line ∧ 13 ∉ e.line
  short : e.line.length < 65536
  instant : InYears (clock d (e.h, e.mi, e.s)) ∧ clock d (e.h, e.mi, e.s) ≠ 0

/-- The logs of a conversation: one file for each day. -/
structure ConvOK (clock : LogDate → Nat × Nat × Nat → Int) (c : LogConv) : Prop where
  days : (c.days.map (·.1)).Nodup
  dates : ∀ d ∈ c.days, d.1.1 < 10000 ∧ d.1.2.1 < 100 ∧ d.1.2.2 < 100
  entries : ∀ d ∈ c.days, ∀ e ∈ d.2, EntryOK clock d.1 e

/-- `sort.Strings`. -/
def SortOK (srt : List Str → List Str) : Prop := ∀ l, (srt l).Perm l ∧ (srt l).Pairwise (fun a b => ¬ b < a)

/-- The text of a message, in which one can search. -/
def saidText : Event → Option Str
  | .text t => some t
  | .notice t => some t
  | .action t => some (1 :: b!"ACTION " ++ t ++ [1])
  | _ => none

/-- The stored message is the entry: in the conversation of the name of the directory, at its time, from its sender,
with its text, and its text form is that of the same event in this conversation (the recipient of a direct message is
the nick of the user). -/
structure KeptEntry (lib : MlLib) (n : MlNetwork) (name : Str) (d : LogDate) (e : LogEntry) (s : Stored) : Prop where
  net : s.net = n.id
  conv : s.name = name
  time : s.m.t = lib.clock d (e.h, e.mi, e.s)
  sender : s.m.sender = e.src.name
  raw : ∃ r : LogMsg, s.m.raw = lib.raw r s.m.t ∧ r.command = e.event.command ∧ r.source.name = e.src.name ∧
    r.params = e.event.params (if e.event.isText = true ∧ name = e.src.name then n.own else name)
  text : s.m.text = (saidText e.event).map stripANSI

/-! ## Lemmas -/

private theorem store_exists {db : MsgDb} {net : Nat} {name : Str} {m : MsgIn} (ht : m.t ≠ 0)
    (hex : db.targets.any (fun t => decide (t.network = net ∧ t.target = name)) = true) :
    insertMessage db net name m = some (storeMessage db net name m) ∧
    (storeMessage db net name m).targets = db.targets := by
  have hv : sqliteValue m.t = some (sqliteFormat m.t) := by unfold sqliteValue; rw [if_neg ht]
  have hi : insertTarget db net name = db := by unfold insertTarget; rw [if_pos hex]
  have hfold : ∀ (l : List MsgTargetRow) (db : MsgDb), (l.foldl (fun db t => { db with messages := db.messages ++
        [⟨nextRowId (db.messages.map (·.id)), t.id, m.raw, sqliteFormat m.t, m.sender, m.text⟩] }) db).targets =
      db.targets := by
    intro l
    induction l with
    | nil => intro db; rfl
    | cons t l ih => intro db; rw [List.foldl_cons, ih]
  unfold storeMessage
  rw [hi]
  unfold insertMessage
  rw [hv]
  dsimp only
  exact ⟨rfl, hfold _ _⟩

private theorem target_there (db : MsgDb) (net : Nat) (name : Str) :
    (insertTarget db net name).targets.any (fun t => decide (t.network = net ∧ t.target = name)) = true := by
  unfold insertTarget
  split
  · assumption
  · simp

private theorem inserts_eq {net : Nat} {name : Str} : ∀ (ms : List MsgIn) (db : MsgDb), (∀ m ∈ ms, m.t ≠ 0) →
    db.targets.any (fun t => decide (t.network = net ∧ t.target = name)) = true →
    insertMessages net name ms db = some (ms.foldl (fun db m => storeMessage db net name m) db) := by
  intro ms
  induction ms with
  | nil => intro db _ _; rfl
  | cons m ms ih =>
    intro db hm hex
    obtain ⟨h1, h2⟩ := store_exists (m := m) (hm m (by simp)) hex
    rw [insertMessages, h1, List.foldl_cons]
    exact ih _ (fun x hx => hm x (by simp [hx])) (by rw [h2]; exact hex)

private theorem store_target (db : MsgDb) (net : Nat) (name : Str) (m : MsgIn) (ht : m.t ≠ 0) :
    storeMessage (insertTarget db net name) net name m = storeMessage db net name m := by
  have h : insertTarget (insertTarget db net name) net name = insertTarget db net name := by
    have ht := target_there db net name
    generalize insertTarget db net name = db' at ht ⊢
    unfold insertTarget
    rw [if_pos ht]
  have hv : sqliteValue m.t = some (sqliteFormat m.t) := by unfold sqliteValue; rw [if_neg ht]
  unfold storeMessage
  rw [h]
  unfold insertMessage
  rw [hv]
  rfl

/-- Messages that are stored together are stored as if one after the other. -/
private theorem stores_eq (db : MsgDb) (net : Nat) (name : Str) (ms : List MsgIn) (hm : ∀ m ∈ ms, m.t ≠ 0) :
    storeMessages db net name ms = (ms.foldl (fun db m => storeMessage db net name m) db, true) := by
  unfold storeMessages
  cases ms with
  | nil => rfl
  | cons m ms =>
    rw [if_neg (by simp), inserts_eq _ _ hm (target_there db net name), List.foldl_cons, List.foldl_cons,
      store_target db net name m (hm m (by simp))]

private theorem scanDec_padDec (w n : Nat) (s : Str) (hw : 0 < w) (hn : n < 10 ^ w)
    (hs : ∀ c, s.head? = some c → isDigit c = false) : scanDec w (padDec w n ++ s) = some (n, s) := by
  have hl := padDec_length w n hw hn
  have hd : ((padDec w n ++ s).take w).takeWhile isDigit = padDec w n := by
    rw [List.take_append_of_le_length (by omega), List.take_of_length_le (by omega), ← List.append_nil (padDec w n),
      List.takeWhile_append_of_pos (fun c hc => by simpa [isDigit] using padDec_digits w n c hc)]
    rfl
  unfold scanDec
  rw [hd]
  dsimp only
  rw [if_neg (by intro h; rw [h] at hl; simp at hl; omega), List.drop_left]
  have : digitsVal (padDec w n) = n := decVal_padDec w n
  rw [this]

private theorem mlDate_dayName (d : LogDate) (h : d.1 < 10000 ∧ d.2.1 < 100 ∧ d.2.2 < 100) :
    mlDate (dayName d) = some d := by
  obtain ⟨y, m, a⟩ := d
  unfold mlDate dayName
  dsimp only [List.cons_append, List.nil_append]
  have nd : ∀ c r, c = 45 ∨ c = 46 → ∀ x, (c :: r : Str).head? = some x → isDigit x = false := by
    rintro c r (rfl | rfl) x hx <;> (simp at hx; subst hx; decide)
  rw [scanDec_padDec 4 y _ (by omega) (by simpa using h.1) (nd 45 _ (Or.inl rfl))]
  simp only [Option.bind_eq_bind, Option.bind_some, List.cons_append, List.nil_append, fixedByte, if_true]
  rw [scanDec_padDec 2 m _ (by omega) (by simpa using h.2.1) (nd 45 _ (Or.inl rfl))]
  simp only [Option.bind_some, fixedByte, if_true]
  rw [scanDec_padDec 2 a _ (by omega) (by simpa using h.2.2) (nd 46 _ (Or.inr rfl))]
  simp only [Option.bind_some]
  rw [if_pos (by decide)]

private theorem dayName_lt {d d' : LogDate} (h : d.1 < 10000 ∧ d.2.1 < 100 ∧ d.2.2 < 100)
    (h' : d'.1 < 10000 ∧ d'.2.1 < 100 ∧ d'.2.2 < 100) (he : Earlier d d') : dayName d < dayName d' := by
  unfold dayName
  refine field_lt 4 _ _ _ _ (by omega) (by simpa using h.1) (by simpa using h'.1) ?_
  rcases he with he | ⟨he, he2⟩
  · exact Or.inl he
  · refine Or.inr ⟨he, append_lt_append _ _ _ (field_lt 2 _ _ _ _ (by omega) (by simpa using h.2.1)
      (by simpa using h'.2.1) ?_)⟩
    rcases he2 with he2 | ⟨he2, he3⟩
    · exact Or.inl he2
    · exact Or.inr ⟨he2, append_lt_append _ _ _ (field_lt 2 _ _ _ _ (by omega) (by simpa using h.2.2)
        (by simpa using h'.2.2) (Or.inl he3))⟩

private theorem earlier_total (d d' : LogDate) : Earlier d d' ∨ d = d' ∨ Earlier d' d := by
  obtain ⟨a, b, c⟩ := d
  obtain ⟨a', b', c'⟩ := d'
  unfold Earlier
  simp only [Prod.mk.injEq]
  omega

/-- The lines of a file. -/
private theorem lines_of (ls : List Str) (h : ∀ l ∈ ls, 10 ∉ l) :
    mlLines (ls.flatMap (fun l => l ++ [10])) = ls := by
  have hs : splitByte 10 (ls.flatMap (fun l => l ++ [10])) = ls ++ [[]] := by
    induction ls with
    | nil => rfl
    | cons l ls ih =>
      rw [List.flatMap_cons, List.append_assoc, List.cons_append, List.nil_append]
      rw [splitByte_append, splitByte_free 10 l (h l (by simp)), ih (fun x hx => h x (by simp [hx]))]
      rfl
  unfold mlLines
  rw [hs]
  simp

private theorem trim_cr {l : Str} (h : 13 ∉ l) : trimSuffix [13] l = l := by
  unfold trimSuffix
  rw [if_neg]
  intro hs
  apply h
  unfold hasSuffix at hs
  obtain ⟨t, ht⟩ := List.isSuffixOf_iff_suffix.1 hs
  rw [← ht]; simp

/-- What is read of a file. -/
private theorem read_of (clock : LogDate → Nat × Nat × Nat → Int) (own name : Str) (d : LogDate) :
    ∀ es : List LogEntry, (∀ e ∈ es, EntryOK clock d e) →
    ∃ ms, mlRead own name (es.map (·.line)) = some ms ∧ ms.length = es.length ∧
      ∀ p ∈ es.zip ms, p.2.2 = (p.1.h, p.1.mi, p.1.s) ∧ p.2.1.command = p.1.event.command ∧
        p.2.1.source.name = p.1.src.name ∧
        p.2.1.params = p.1.event.params (if p.1.event.isText = true ∧ name = p.1.src.name then own else name) := by
  intro es
  induction es with
  | nil => intro _; exact ⟨[], rfl, rfl, fun p hp => by simp at hp⟩
  | cons e es ih =>
    intro h
    obtain ⟨ms, h1, h2, h3⟩ := ih (fun x hx => h x (by simp [hx]))
    have ho := h e (by simp)
    obtain ⟨r, hr, hc, hn, hp⟩ := C15_roundtrip e.event e.src e.target name own true e.h e.mi e.s ho.wf ho.name ho.user
      ho.host ho.kind (Or.inr rfl) ho.time.1 ho.time.2.1 ho.time.2.2
    refine ⟨(r, e.h, e.mi, e.s) :: ms, ?_, by simp [h2], ?_⟩
    · rw [List.map_cons, mlRead, if_neg (by have := ho.short; unfold mlMaxLine; omega), trim_cr ho.plain.2]
      rw [show unmarshalLine e.line name own true = _ from hr]
      dsimp only
      rw [h1]
      rfl
    · intro p hp'
      rw [List.zip_cons_cons, List.mem_cons] at hp'
      rcases hp' with rfl | hp'
      · exact ⟨rfl, hc, hn, hp⟩
      · exact h3 p hp'

private theorem text_of (e : Event) (x : Str) (r : LogMsg) (hc : r.command = e.command) (hp : r.params = e.params x) :
    (if (r.command = b!"PRIVMSG" ∨ r.command = b!"NOTICE") ∧ r.params.length > 1 then
      some (stripANSI (r.params.getD 1 [])) else none) =
    (saidText e).map stripANSI := by
  rw [hc, hp]
  cases e <;> simp [Event.command, Event.params, saidText]

/-- The entries of a file are stored. -/
private theorem file_of (lib : MlLib) (n : MlNetwork) (name : Str) (db : MsgDb) (d : LogDate)
    (hd : d.1 < 10000 ∧ d.2.1 < 100 ∧ d.2.2 < 100) (es : List LogEntry) (h : ∀ e ∈ es, EntryOK lib.clock d e) :
    ∃ moved : List Stored, mlFile lib n.id n.own name db (dayName d) (es.flatMap (fun e => e.line ++ [10])) =
        (moved.foldl (fun db s => storeMessage db s.net s.name s.m) db, true) ∧
      moved.length = es.length ∧ ∀ p ∈ es.zip moved, KeptEntry lib n name d p.1 p.2 := by
  obtain ⟨ms, h1, h2, h3⟩ := read_of lib.clock n.own name d es h
  have hl : mlLines (es.flatMap (fun e => e.line ++ [10])) = es.map (·.line) := by
    rw [show es.flatMap (fun e => e.line ++ [10]) = (es.map (·.line)).flatMap (fun l => l ++ [10]) by
      rw [List.flatMap_map]]
    refine lines_of _ ?_
    intro l hl
    obtain ⟨e, he, rfl⟩ := List.mem_map.1 hl
    exact (h e he).plain.1
  refine ⟨ms.map (fun p => ⟨n.id, name, mlColumns lib p.1 (lib.clock d p.2)⟩), ?_, by simpa using h2, ?_⟩
  · unfold mlFile
    rw [mlDate_dayName d hd, hl]
    dsimp only
    rw [h1]
    dsimp only
    rw [stores_eq, List.foldl_map, List.foldl_map]
    intro m hm
    obtain ⟨q, hq, rfl⟩ := List.mem_map.1 hm
    obtain ⟨i, hi, rfl⟩ := List.getElem_of_mem hq
    have hz : (es[i]'(by omega), ms[i]) ∈ es.zip ms := by
      rw [← List.getElem_zip (h := by simp; omega)]
      exact List.getElem_mem _
    have ht := (h3 _ hz).1
    show lib.clock d (ms[i]).2 ≠ 0
    dsimp only at ht
    rw [ht]
    exact (h _ (List.getElem_mem _)).instant.2
  · intro p hp
    rw [List.zip_map_right] at hp
    obtain ⟨q, hq, rfl⟩ := List.mem_map.1 hp
    obtain ⟨a1, a2, a3, a4⟩ := h3 q hq
    obtain ⟨e, r, t⟩ := q
    dsimp only at a1 a2 a3 a4
    subst a1
    exact { net := rfl, conv := rfl, time := rfl, sender := a3, raw := ⟨r, rfl, a2, a3, a4⟩,
            text := text_of e.event _ r a2 a4 }

private theorem zip_append {α β : Type} {P : α → β → Prop} {a a' : List α} {b b' : List β} (hl : a.length = b.length)
    (h : ∀ p ∈ a.zip b, P p.1 p.2) (h' : ∀ p ∈ a'.zip b', P p.1 p.2) : ∀ p ∈ (a ++ a').zip (b ++ b'), P p.1 p.2 := by
  intro p hp
  rw [List.zip_append hl] at hp
  rcases List.mem_append.1 hp with hp | hp
  · exact h p hp
  · exact h' p hp

/-- What is to be stored: the network, the conversation, the day and the entry. -/
abbrev LogItem := MlNetwork × Str × LogDate × LogEntry

/-- The entries of days of a conversation. -/
def dayItems (n : MlNetwork) (name : Str) (days : List (LogDate × List LogEntry)) : List LogItem :=
  days.flatMap (fun d => d.2.map (fun e => (n, name, d.1, e)))

/-- The messages that have been stored are these entries, in this order. -/
def MovedItems (lib : MlLib) (items : List LogItem) (moved : List Stored) : Prop :=
  moved.length = items.length ∧ ∀ p ∈ items.zip moved, KeptEntry lib p.1.1 p.1.2.1 p.1.2.2.1 p.1.2.2.2 p.2

private theorem moved_append {lib : MlLib} {a b : List LogItem} {x y : List Stored} (h : MovedItems lib a x)
    (h' : MovedItems lib b y) : MovedItems lib (a ++ b) (x ++ y) :=
  ⟨by simp [h.1, h'.1], zip_append (P := fun (a : LogItem) (b : Stored) => KeptEntry lib a.1 a.2.1 a.2.2.1 a.2.2.2 b)
    h.1.symm h.2 h'.2⟩

private theorem lookup_day {c : LogConv} {clock : LogDate → Nat × Nat × Nat → Int} (hc : ConvOK clock c)
    {d : LogDate × List LogEntry} (hd : d ∈ c.days) :
    c.dir.2.lookup (dayName d.1) = some (d.2.flatMap (fun e => e.line ++ [10])) := by
  unfold LogConv.dir
  dsimp only
  obtain ⟨h1, h2, -⟩ := hc
  revert h1 h2 hd
  induction c.days with
  | nil => intro hd; cases hd
  | cons x l ih =>
    intro hd h1 h2
    rw [List.map_cons, List.lookup_cons]
    rw [List.map_cons, List.nodup_cons] at h1
    by_cases hx : x = d
    · subst hx; simp
    · have hm : d ∈ l := by rcases List.mem_cons.1 hd with h | h; exact absurd h.symm hx; exact h
      have hne : dayName d.1 ≠ dayName x.1 := by
        intro he
        have e1 := mlDate_dayName d.1 (h2 d (by simp [hm]))
        have e2 := mlDate_dayName x.1 (h2 x (by simp))
        rw [he, e2] at e1
        exact h1.1 (List.mem_map.2 ⟨d, hm, (Option.some.inj e1).symm⟩)
      rw [show (dayName d.1 == dayName x.1) = false by simpa using hne]
      exact ih hm h1.2 (fun y hy => h2 y (by simp [hy]))

private theorem files_of (lib : MlLib) (n : MlNetwork) (c : LogConv) (hc : ConvOK lib.clock c) :
    ∀ (days : List (LogDate × List LogEntry)) (db : MsgDb), (∀ d ∈ days, d ∈ c.days) →
    ∃ moved : List Stored, mlFiles lib n.id n.own c.name c.dir.2 (days.map (fun d => dayName d.1)) db =
        (moved.foldl (fun db s => storeMessage db s.net s.name s.m) db, true) ∧
      MovedItems lib (dayItems n c.name days) moved := by
  intro days
  induction days with
  | nil => intro db _; exact ⟨[], rfl, rfl, fun p hp => by simp [dayItems] at hp⟩
  | cons d days ih =>
    intro db hd
    have hm := hd d (by simp)
    obtain ⟨m1, e1, l1, k1⟩ := file_of lib n c.name db d.1 (hc.dates d hm) d.2 (hc.entries d hm)
    obtain ⟨m2, e2, k2⟩ := ih (m1.foldl (fun db s => storeMessage db s.net s.name s.m) db)
      (fun x hx => hd x (by simp [hx]))
    refine ⟨m1 ++ m2, ?_, ?_⟩
    · rw [List.map_cons, mlFiles, lookup_day hc hm, Option.getD_some, e1]
      dsimp only
      rw [e2, List.foldl_append]
    · refine moved_append ⟨by simpa using l1, ?_⟩ k2
      intro p hp
      rw [List.zip_map_left] at hp
      obtain ⟨q, hq, rfl⟩ := List.mem_map.1 hp
      exact k1 q hq

/-- The days of a conversation in chronological order. -/
def InOrder (days sorted : List (LogDate × List LogEntry)) : Prop :=
  sorted.Perm days ∧ (sorted.map (·.1)).Pairwise Earlier

private theorem sorted_days (lib : MlLib) (hs : SortOK lib.srt) (c : LogConv) (hc : ConvOK lib.clock c) :
    ∃ sorted, InOrder c.days sorted ∧ sorted.map (fun d => dayName d.1) = lib.srt (c.dir.2.map (·.1)) := by
  have e : c.dir.2.map (·.1) = c.days.map (fun d => dayName d.1) := by
    unfold LogConv.dir; rw [List.map_map]; rfl
  obtain ⟨h1, h2⟩ := hs (c.dir.2.map (·.1))
  obtain ⟨sorted, h3, h4⟩ := perm_map_inv (fun d : LogDate × List LogEntry => dayName d.1) h1 c.days e
  refine ⟨sorted, ⟨h3, ?_⟩, h4.symm⟩
  have hn : (sorted.map (·.1)).Nodup := (h3.map (·.1)).nodup_iff.2 hc.days
  rw [h4] at h2
  rw [List.pairwise_map] at h2 ⊢
  rw [List.nodup_iff_pairwise_ne, List.pairwise_map] at hn
  have hb : ∀ d ∈ sorted, d.1.1 < 10000 ∧ d.1.2.1 < 100 ∧ d.1.2.2 < 100 := fun d hd => hc.dates d (h3.mem_iff.1 hd)
  refine (h2.and hn).imp_of_mem ?_
  intro a b ha hb' ⟨hl, hne⟩
  rcases earlier_total a.1 b.1 with h | h | h
  · exact h
  · exact absurd h hne
  · exact absurd (dayName_lt (hb b hb') (hb a ha) h) hl

private theorem targets_of (lib : MlLib) (hs : SortOK lib.srt) (n : MlNetwork) :
    ∀ (cs : List LogConv) (db : MsgDb), (∀ c ∈ cs, ConvOK lib.clock c) →
    ∃ (sorted : List (LogConv × List (LogDate × List LogEntry))) (moved : List Stored),
      sorted.map (·.1) = cs ∧ (∀ p ∈ sorted, InOrder p.1.days p.2) ∧
      mlTargets lib n.id n.own (cs.map LogConv.dir) db =
        (moved.foldl (fun db s => storeMessage db s.net s.name s.m) db, true) ∧
      MovedItems lib (sorted.flatMap (fun p => dayItems n p.1.name p.2)) moved := by
  intro cs
  induction cs with
  | nil => intro db _; exact ⟨[], [], rfl, fun p hp => (nomatch hp), rfl, rfl, fun p hp => by simp at hp⟩
  | cons c cs ih =>
    intro db hc
    obtain ⟨days, hd, he⟩ := sorted_days lib hs c (hc c (by simp))
    obtain ⟨m1, e1, k1⟩ := files_of lib n c (hc c (by simp)) days db (fun d h => hd.1.mem_iff.1 h)
    obtain ⟨sorted, m2, h1, h2, e2, k2⟩ := ih (m1.foldl (fun db s => storeMessage db s.net s.name s.m) db)
      (fun x hx => hc x (by simp [hx]))
    refine ⟨(c, days) :: sorted, m1 ++ m2, by simp [h1], ?_, ?_, moved_append k1 k2⟩
    · intro p hp
      rcases List.mem_cons.1 hp with rfl | hp
      · exact hd
      · exact h2 p hp
    · rw [he] at e1
      rw [List.map_cons, show c.dir = (c.name, c.dir.2) from rfl, mlTargets, e1]
      dsimp only
      rw [e2, List.foldl_append]

/-! ## Theorems -/

/-- migrate-logs succeeds, and stores every entry of every conversation of every network once, those of a conversation
in the order in which they were logged, at their time, with their sender and their contents.  What was in the
database before stays.

The conversation in the database has the name of the directory, see `C91_name_violated`. -/
theorem C91_moved_partial (lib : MlLib) (hs : SortOK lib.srt) (tree : MlTree) (nets : List MlNetwork)
    (logs : MlNetwork → List LogConv)
    (htree : ∀ n ∈ nets, tree (escapeFilename n.user) (escapeFilename n.name) = some ((logs n).map LogConv.dir) ∨
      (logs n = [] ∧ tree (escapeFilename n.user) (escapeFilename n.name) = none))
    (hok : ∀ n ∈ nets, ∀ c ∈ logs n, ConvOK lib.clock c) (before : List Stored) :
    ∃ (sorted : List (MlNetwork × List (LogConv × List (LogDate × List LogEntry)))) (moved : List Stored),
      sorted.map (·.1) = nets ∧
      (∀ q ∈ sorted, q.2.map (·.1) = logs q.1 ∧ ∀ p ∈ q.2, InOrder p.1.days p.2) ∧
      migrateLogs lib tree nets (dbOf before) = (dbOf (before ++ moved), true) ∧
      MovedItems lib (sorted.flatMap (fun q => q.2.flatMap (fun p => dayItems q.1 p.1.name p.2))) moved := by
  have key : ∀ (nets : List MlNetwork) (db : MsgDb),
      (∀ n ∈ nets, tree (escapeFilename n.user) (escapeFilename n.name) = some ((logs n).map LogConv.dir) ∨
        (logs n = [] ∧ tree (escapeFilename n.user) (escapeFilename n.name) = none)) →
      (∀ n ∈ nets, ∀ c ∈ logs n, ConvOK lib.clock c) →
      ∃ (sorted : List (MlNetwork × List (LogConv × List (LogDate × List LogEntry)))) (moved : List Stored),
        sorted.map (·.1) = nets ∧
        (∀ q ∈ sorted, q.2.map (·.1) = logs q.1 ∧ ∀ p ∈ q.2, InOrder p.1.days p.2) ∧
        migrateLogs lib tree nets db = (moved.foldl (fun db s => storeMessage db s.net s.name s.m) db, true) ∧
        MovedItems lib (sorted.flatMap (fun q => q.2.flatMap (fun p => dayItems q.1 p.1.name p.2))) moved := by
    intro nets
    induction nets with
    | nil => intro db _ _; exact ⟨[], [], rfl, fun q hq => (nomatch hq), rfl, rfl, fun p hp => by simp at hp⟩
    | cons n nets ih =>
      intro db ht ho
      rcases ht n (by simp) with h | ⟨h0, h⟩
      · obtain ⟨s1, m1, a1, a2, a3, a4⟩ := targets_of lib hs n (logs n) db (ho n (by simp))
        obtain ⟨s2, m2, b1, b2, b3, b4⟩ := ih (m1.foldl (fun db s => storeMessage db s.net s.name s.m) db)
          (fun x hx => ht x (by simp [hx])) (fun x hx => ho x (by simp [hx]))
        refine ⟨(n, s1) :: s2, m1 ++ m2, by simp [b1], ?_, ?_, moved_append a4 b4⟩
        · intro q hq
          rcases List.mem_cons.1 hq with rfl | hq
          · exact ⟨a1, a2⟩
          · exact b2 q hq
        · rw [migrateLogs, h]
          dsimp only
          rw [a3]
          dsimp only
          rw [b3, List.foldl_append]
      · obtain ⟨s2, m2, b1, b2, b3, b4⟩ := ih db
          (fun x hx => ht x (by simp [hx])) (fun x hx => ho x (by simp [hx]))
        refine ⟨(n, []) :: s2, m2, by simp [b1], ?_, ?_, by simpa using b4⟩
        · intro q hq
          rcases List.mem_cons.1 hq with rfl | hq
          · exact ⟨h0.symm, fun p hp => (nomatch hp)⟩
          · exact b2 q hq
        · rw [migrateLogs, h]
          exact b3
  obtain ⟨sorted, moved, h1, h2, h3, h4⟩ := key nets (dbOf before) htree hok
  refine ⟨sorted, moved, h1, h2, ?_, h4⟩
  rw [h3]
  unfold dbOf
  rw [List.foldl_append]

/-! ## Examples and disagreements -/

private theorem read_all {own target : Str} : ∀ {ls : List Str}, (mlRead own target ls).isSome = true →
    ∀ l ∈ ls, l.length < 65536 ∧ (unmarshalLine (trimSuffix [13] l) target own true).isSome = true
  | [], _ => by simp
  | a :: ls, h => by
    rw [mlRead] at h
    split at h
    · simp at h
    · rename_i hlen
      have hl : a.length < 65536 := by unfold mlMaxLine at hlen; omega
      cases hu : unmarshalLine (trimSuffix [13] a) target own true with
      | none => simp [hu] at h
      | some r =>
        obtain ⟨m, t⟩ := r
        have ht : (mlRead own target ls).isSome = true := by
          cases m <;> simp only [hu, Option.isSome_map] at h <;> exact h
        intro l hm
        rcases List.mem_cons.1 hm with rfl | hm
        · exact ⟨hl, by rw [hu]; rfl⟩
        · exact read_all ht l hm

private theorem files_all {lib : MlLib} {network : Nat} {own target : Str} {files : List (Str × Str)} :
    ∀ {names : List Str} {db : MsgDb}, (mlFiles lib network own target files names db).2 = true →
    ∀ name ∈ names, (mlDate name).isSome = true ∧
      (mlRead own target (mlLines ((files.lookup name).getD []))).isSome = true
  | [], _, _ => by simp
  | a :: names, db, h => by
    rw [mlFiles] at h
    cases hf : mlFile lib network own target db a ((files.lookup a).getD []) with
    | mk db' ok =>
      cases ok with
      | false => simp [hf] at h
      | true =>
        simp only [hf] at h
        intro name hm
        rcases List.mem_cons.1 hm with rfl | hm
        · unfold mlFile at hf
          cases hd : mlDate name with
          | none => simp [hd] at hf
          | some d =>
            cases hr : mlRead own target (mlLines ((files.lookup name).getD [])) with
            | none => simp [hd, hr] at hf
            | some ms => exact ⟨rfl, rfl⟩
        · exact files_all h name hm

private theorem targets_all {lib : MlLib} {network : Nat} {own : Str} :
    ∀ {dirs : List (Str × List (Str × Str))} {db : MsgDb}, (mlTargets lib network own dirs db).2 = true →
    ∀ c ∈ dirs, ∃ db', (mlFiles lib network own c.1 c.2 (lib.srt (c.2.map (·.1))) db').2 = true
  | [], _, _ => by simp
  | (target, files) :: rest, db, h => by
    rw [mlTargets] at h
    cases hf : mlFiles lib network own target files (lib.srt (files.map (·.1))) db with
    | mk db' ok =>
      cases ok with
      | false => simp [hf] at h
      | true =>
        simp only [hf] at h
        intro c hm
        rcases List.mem_cons.1 hm with rfl | hm
        · exact ⟨db, by rw [hf]⟩
        · exact targets_all h c hm

/-- A line is a line of a log: it is not too long for the program, and it has a time. -/
def ReadableLine (own target l : Str) : Prop :=
  l.length < 65536 ∧ (unmarshalLine (trimSuffix [13] l) target own true).isSome = true

/-- C91: a run that ends without an error has left out no file, and has read the files to their ends: the name of
each file is that of a log of a day, and each of its lines could be read. -/
theorem C91_success (lib : MlLib) (hs : SortOK lib.srt) (tree : MlTree) (nets : List MlNetwork) (db : MsgDb)
    (h : (migrateLogs lib tree nets db).2 = true) :
    ∀ n ∈ nets, ∀ dirs, tree (escapeFilename n.user) (escapeFilename n.name) = some dirs →
      ∀ c ∈ dirs, (c.2.map (·.1)).Nodup → ∀ f ∈ c.2, (mlDate f.1).isSome = true ∧
        ∀ l ∈ mlLines f.2, ReadableLine n.own c.1 l := by
  induction nets generalizing db with
  | nil => simp
  | cons a ns ih =>
    intro n hn dirs hd c hc hnd f hf
    rw [migrateLogs] at h
    cases ht : tree (escapeFilename a.user) (escapeFilename a.name) with
    | none =>
      simp only [ht] at h
      rcases List.mem_cons.1 hn with rfl | hn
      · rw [ht] at hd; simp at hd
      · exact ih _ h n hn dirs hd c hc hnd f hf
    | some dirs' =>
      simp only [ht] at h
      cases hm : mlTargets lib a.id a.own dirs' db with
      | mk db' ok =>
        cases ok with
        | false => simp [hm] at h
        | true =>
          simp only [hm] at h
          rcases List.mem_cons.1 hn with rfl | hn
          · rw [ht] at hd
            simp only [Option.some.injEq] at hd
            subst hd
            obtain ⟨db2, hfs⟩ := targets_all (by rw [hm]) c hc
            have hin : f.1 ∈ lib.srt (c.2.map (·.1)) := (hs _).1.mem_iff.2 (List.mem_map_of_mem hf)
            obtain ⟨h1, h2⟩ := files_all hfs f.1 hin
            refine ⟨h1, ?_⟩
            have hl : ∀ (fs : List (Str × Str)), (fs.map (·.1)).Nodup → f ∈ fs → fs.lookup f.1 = some f.2 := by
              intro fs hnd hf
              induction fs with
              | nil => simp at hf
              | cons g fs ih =>
                rw [List.map_cons, List.nodup_cons] at hnd
                rcases List.mem_cons.1 hf with rfl | hf'
                · obtain ⟨a, b⟩ := f; simp [List.lookup]
                · have hne : f.1 ≠ g.1 := fun e => hnd.1 (e ▸ List.mem_map_of_mem hf')
                  obtain ⟨ga, gb⟩ := g
                  rw [List.lookup]
                  simp only at hne
                  rw [show (f.1 == ga) = false by simpa using hne]
                  exact ih hnd.2 hf'
            rw [hl _ hnd hf] at h2
            exact read_all h2
          · exact ih _ h n hn dirs hd c hc hnd f hf

private def putName (a : Str) : List Str → List Str
  | [] => [a]
  | b :: l => if b < a then b :: putName a l else a :: b :: l

/-- Insertion sort, and some instant for each time of day. -/
def mlLibEx : MlLib where
  srt := fun l => l.foldr putName []
  clock := fun d t => (d.1 * 400 + d.2.1 * 31 + d.2.2) * 86400000000000 + (t.1 * 3600 + t.2.1 * 60 + t.2.2) * 1000000000
  raw := fun m _ => joinStr b!" " (m.command :: m.params)

private theorem putName_perm (a : Str) (l : List Str) : (putName a l).Perm (a :: l) := by
  induction l with
  | nil => exact List.Perm.refl _
  | cons b l ih =>
    rw [putName]
    split
    · exact (ih.cons b).trans (List.Perm.swap a b l)
    · exact List.Perm.refl _

private theorem putName_sorted (a : Str) (l : List Str) (h : l.Pairwise (fun a b => ¬ b < a)) :
    (putName a l).Pairwise (fun a b => ¬ b < a) := by
  induction l with
  | nil => simp [putName]
  | cons b l ih =>
    rw [putName]
    rw [List.pairwise_cons] at h
    split
    · rename_i hb
      rw [List.pairwise_cons]
      refine ⟨?_, ih h.2⟩
      intro x hx
      rcases List.mem_cons.1 ((putName_perm a l).mem_iff.1 hx) with rfl | hx
      · exact List.not_lt.2 (List.le_of_lt hb)
      · exact h.1 x hx
    · rename_i hb
      rw [List.pairwise_cons]
      refine ⟨?_, List.pairwise_cons.2 h⟩
      intro x hx
      rcases List.mem_cons.1 hx with rfl | hx
      · exact hb
      · exact List.not_lt.2 (List.le_trans (List.not_lt.1 hb) (List.not_lt.1 (h.1 x hx)))

private theorem sortEx : SortOK mlLibEx.srt := by
  intro l
  show (l.foldr putName []).Perm l ∧ _
  induction l with
  | nil => exact ⟨List.Perm.refl _, List.Pairwise.nil⟩
  | cons a l ih => exact ⟨(putName_perm a _).trans (ih.1.cons a), putName_sorted a _ ih.2⟩

example : SortOK mlLibEx.srt := sortEx

private def mlNetEx : MlNetwork := ⟨b!"alice", b!"libera", 3, b!"al"⟩

private def mlEntryEx (t : Str) : LogEntry := ⟨.text t, ⟨b!"bob", [], []⟩, b!"#soju", 9, 5, 59⟩

private def mlConvEx (name : Str) : LogConv :=
  ⟨name, [((2024, 2, 1), [mlEntryEx b!"two", mlEntryEx b!"three"]), ((2024, 1, 31), [mlEntryEx b!"one"])]⟩

private def mlTreeEx (cs : List LogConv) : MlTree := fun u n =>
  if u = b!"alice" ∧ n = b!"libera" then some (cs.map LogConv.dir) else none

private theorem entryEx_ok (d : LogDate) (hd : d = (2024, 2, 1) ∨ d = (2024, 1, 31)) (t : Str)
    (ht : t = b!"one" ∨ t = b!"two" ∨ t = b!"three") : EntryOK mlLibEx.clock d (mlEntryEx t) := by
  refine ⟨?_, by dsimp only [mlEntryEx]; decide, by dsimp only [mlEntryEx]; decide, by dsimp only [mlEntryEx]; decide,
    by dsimp only [mlEntryEx]; decide, by dsimp only [mlEntryEx]; decide, ?_, ?_, ?_⟩
  · rcases ht with rfl | rfl | rfl <;> (unfold mlEntryEx Event.WF isAction; decide)
  · rcases ht with rfl | rfl | rfl <;> decide +kernel
  · rcases ht with rfl | rfl | rfl <;> decide +kernel
  · dsimp only [InYears, mlEntryEx]
    rcases hd with rfl | rfl <;> decide +kernel

example : ConvOK mlLibEx.clock (mlConvEx b!"#soju") := by
  refine ⟨by decide, by decide, ?_⟩
  intro d hd e he
  simp only [mlConvEx, List.mem_cons, List.not_mem_nil, or_false] at hd
  rcases hd with rfl | rfl
  · simp only [List.mem_cons, List.not_mem_nil, or_false] at he
    rcases he with rfl | rfl
    · exact entryEx_ok _ (Or.inl rfl) _ (Or.inr (Or.inl rfl))
    · exact entryEx_ok _ (Or.inl rfl) _ (Or.inr (Or.inr rfl))
  · simp only [List.mem_cons, List.not_mem_nil, or_false] at he
    subst he
    exact entryEx_ok _ (Or.inr rfl) _ (Or.inl rfl)

example : (migrateLogs mlLibEx (mlTreeEx [mlConvEx b!"#soju"]) [mlNetEx] {}).1.messages.map (·.raw) =
    [b!"PRIVMSG #soju one", b!"PRIVMSG #soju two", b!"PRIVMSG #soju three"] := by decide +kernel

example : (migrateLogs mlLibEx (mlTreeEx [mlConvEx b!"#soju"]) [mlNetEx] {}).2 = true ∧
    (((mlConvEx b!"#soju").dir).2.map (·.1)).Nodup := by decide +kernel

/-- The full property: what was logged in a conversation is afterwards in the history of this conversation. -/
def LogsKept : Prop := ∀ (lib : MlLib), SortOK lib.srt → ∀ (tree : MlTree) (n : MlNetwork) (name : Str) (c : LogConv),
  c.name = escapeFilename name → c.days.flatMap (·.2) ≠ [] → ConvOK lib.clock c →
  tree (escapeFilename n.user) (escapeFilename n.name) = some [c.dir] →
  ∃ t ∈ (migrateLogs lib tree [n] {}).1.targets, t.network = n.id ∧ t.target = name

/-- C91 does not hold for a conversation whose name cannot be the name of a directory: what was logged in `#a/b` is
afterwards in `#a-b`. -/
theorem C91_name_violated : ¬ LogsKept := by
  intro h
  obtain ⟨t, ht, -, hn⟩ := h mlLibEx sortEx
    (mlTreeEx [⟨b!"#a-b", [((2024, 2, 1), [mlEntryEx b!"one"])]⟩]) mlNetEx b!"#a/b"
    ⟨b!"#a-b", [((2024, 2, 1), [mlEntryEx b!"one"])]⟩ (by decide) (by decide) (by
      refine ⟨by decide, by decide, ?_⟩
      intro d hd e he
      simp only [List.mem_cons, List.not_mem_nil, or_false] at hd
      subst hd
      simp only [List.mem_cons, List.not_mem_nil, or_false] at he
      subst he
      exact entryEx_ok _ (Or.inl rfl) _ (Or.inl rfl)) (by decide)
  have : (migrateLogs mlLibEx (mlTreeEx [⟨b!"#a-b", [((2024, 2, 1), [mlEntryEx b!"one"])]⟩]) [mlNetEx] {}).1.targets.map
      (·.target) = [b!"#a-b"] := by decide +kernel
  have hm := List.mem_map_of_mem (f := (·.target)) ht
  rw [this, hn] at hm
  revert hm
  decide

/-- C91 (disagreement): a second run stores everything again. -/
theorem C91_twice_violated :
    let once := (migrateLogs mlLibEx (mlTreeEx [mlConvEx b!"#soju"]) [mlNetEx] {}).1
    ((migrateLogs mlLibEx (mlTreeEx [mlConvEx b!"#soju"]) [mlNetEx] once).1.messages.filter
      (fun m => decide (m.raw = b!"PRIVMSG #soju one"))).length = 2 := by decide +kernel

/-- C91 (disagreement): migrate-logs stops at a file that is no log of a day, after it has stored a part of the
history; the rest is not stored, and to run it again stores this part twice. -/
theorem C91_stops_violated :
    let tree : MlTree := fun u n => if u = b!"alice" ∧ n = b!"libera" then
      some [(mlConvEx b!"#soju").dir, (b!"#go", [(b!"notes.txt", b!"hello")]), (mlConvEx b!"#test").dir] else none
    let r := migrateLogs mlLibEx tree [mlNetEx] {}
    r.2 = false ∧ r.1.targets.map (·.target) = [b!"#soju"] := by decide +kernel

end Verif.Props
