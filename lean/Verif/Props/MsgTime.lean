import Verif.Model.MsgTime
import Verif.Model.FsStore
import Verif.Props.SqlTime

/-! # C113: a message has one time -/

namespace Verif.Props
open Verif.Model

/-! ## Specification -/

/-- The parser reads what has been written: the instant, to the millisecond. -/
def ReadsTimes (parse : Str → Option Int) : Prop := ∀ t, InYears t → parse (sqliteFormat t) = some (toMillis t)

/-- The periods of a time zone contain the instant they are asked for, and the offset is the same all through them. -/
def ZoneOk (z : Zone) : Prop :=
  ∀ u, z.start u ≤ u ∧ u < z.stop u ∧ ∀ v, z.start u ≤ v → v < z.stop u → z.offset v = z.offset u

/-- In the two days before and after the instant (in seconds) local time changes at most between two offsets. -/
def OneChange (z : Zone) (s : Int) : Prop :=
  ∃ a b, (∀ u, s - 172800 ≤ u → u ≤ s + 172800 → z.offset u = a ∨ z.offset u = b) ∧
    -86400 ≤ a ∧ a ≤ 86400 ∧ -86400 ≤ b ∧ b ≤ 86400

/-- The clocks show the local time of the instant only once. -/
def ShownOnce (z : Zone) (s : Int) : Prop :=
  ∀ u, s - 172800 ≤ u → u ≤ s + 172800 → u + z.offset u = s + z.offset s → u = s

/-- The instant, as precise as the store is: to the second with log files, to the millisecond otherwise. -/
def cutOff (kind : StoreKind) (t : Int) : Int := if kind = .files then t - t % 1000000000 else toMillis t

/-! ## Lemmas -/

private theorem years_cut {t : Int} (h : InYears t) : InYears (t - t % 1000000000) := by
  unfold InYears dayNanos at h ⊢
  omega

private theorem format_millis (t : Int) : sqliteFormat (toMillis t) = sqliteFormat t := by
  have h1 : toMillis t / dayNanos = t / dayNanos := by unfold toMillis dayNanos; omega
  have h2 : toMillis t % dayNanos / 1000000 = t % dayNanos / 1000000 := by unfold toMillis dayNanos; omega
  unfold sqliteFormat
  rw [h1, h2]

private theorem server_time (kind : StoreKind) (t : Int) : formatServerTime kind t = sqliteFormat (cutOff kind t) := by
  unfold formatServerTime cutOff secNanos
  split
  · rfl
  · rw [format_millis]

private theorem years_cutOff {kind : StoreKind} {t : Int} (h : InYears t) : InYears (cutOff kind t) := by
  unfold cutOff
  split
  · exact years_cut h
  · unfold InYears toMillis dayNanos at *
    omega

private theorem millis_cutOff (kind : StoreKind) (t : Int) : toMillis (cutOff kind t) = cutOff kind t := by
  unfold cutOff toMillis
  split <;> omega

/-- `time.Date` finds the instant whose local time the clocks show only once. -/
private theorem goDate_local {z : Zone} {s : Int} (hz : ZoneOk z) (h1 : OneChange z s) (h2 : ShownOnce z s) :
    goDate z ((s + z.offset s) / 86400) ((s + z.offset s) % 86400) = s * secNanos := by
  obtain ⟨a, b, hab, ha1, ha2, hb1, hb2⟩ := h1
  unfold goDate
  dsimp only
  have hu : (s + z.offset s) / 86400 * 86400 + (s + z.offset s) % 86400 = s + z.offset s := by omega
  rw [hu]
  have hs := hab s (by omega) (by omega)
  generalize hL : s + z.offset s = L
  have hoff := hab L (by omega) (by omega)
  have hutc := hab (L - z.offset L) (by omega) (by omega)
  congr 1
  split
  · rename_i hc
    by_cases he : z.offset L = z.offset s
    · have : L - z.offset L = s := by omega
      rw [this]; omega
    · by_cases he' : z.offset (L - z.offset L) = z.offset s
      · rw [he']; omega
      · have : z.offset (L - z.offset L) = z.offset L := by omega
        have := h2 (L - z.offset L) (by omega) (by omega) (by omega)
        omega
  · rename_i hc
    have hin : z.offset (L - z.offset L) = z.offset L := by
      by_cases h0 : z.offset L = 0
      · rw [h0]; simp [h0]
      · have : ¬ (L - z.offset L < z.start L ∨ z.stop L ≤ L - z.offset L) := fun h => hc ⟨h0, h⟩
        exact (hz L).2.2 _ (by omega) (by omega)
    exact h2 (L - z.offset L) (by omega) (by omega) (by omega)

/-! ## The time clients are shown -/

/-- A message of the server has the time the server gave it — to the second if messages are kept in log files, as it is
otherwise — and one the server gave none that can be read has the time at which it was received. -/
theorem C113_live (parse : Str → Option Int) (hp : ReadsTimes parse) (kind : StoreKind) (now : Int) :
    (∀ t, InYears t → liveTag parse kind (some (sqliteFormat t)) now = sqliteFormat (cutOff kind t)) ∧
    (∀ t, InYears t → kind ≠ .files → liveTag parse kind (some (sqliteFormat t)) now = sqliteFormat t) ∧
    (∀ tag, parse (tag.getD []) = none → liveTag parse kind tag now = sqliteFormat (cutOff kind now)) := by
  have key : ∀ t, InYears t → liveTag parse kind (some (sqliteFormat t)) now = sqliteFormat (cutOff kind t) := by
    intro t ht
    unfold liveTag
    rw [Option.getD_some, hp t ht, Option.getD_some, server_time]
    congr 1
    unfold cutOff toMillis
    split <;> omega
  refine ⟨key, fun t ht hk => ?_, fun tag h => ?_⟩
  · rw [key t ht]
    unfold cutOff
    rw [if_neg hk, format_millis]
  · unfold liveTag
    rw [h, Option.getD_none, server_time]

/-- The model of `time.Parse` for well-formed times is such a parser. -/
theorem C113_reads : ReadsTimes sqliteParse := fun t h => C34_roundtrip t h

example : liveTag sqliteParse .sqlite (some b!"2026-10-25T00:30:00.123Z") 0 = b!"2026-10-25T00:30:00.123Z" ∧
    liveTag sqliteParse .files (some b!"2026-10-25T00:30:00.123Z") 0 = b!"2026-10-25T00:30:00.000Z" ∧
    liveTag sqliteParse .memory (some b!"yesterday") 63928486800000000000 = b!"2026-10-25T01:00:00.000Z" ∧
    liveTag sqliteParse .memory none 63928486800000000000 = b!"2026-10-25T01:00:00.000Z" := by decide +kernel

/-! ## The time in the history -/

/-- A message comes from the history with the time it was shown with when it arrived, and it is selected and sorted by this
time. Partial: with log files the clocks must show its local time only once (`C113_summer_violated`), and a database does not
keep a message of the first instant of the year 1 (`C113_zero_violated`). -/
theorem C113_history_partial (parse : Str → Option Int) (hp : ReadsTimes parse) (z : Zone) (kind : StoreKind)
    (tag : Option Str) (now t : Int) (ht : InYears t) (hl : liveTag parse kind tag now = sqliteFormat t)
    (hfiles : kind = .files → t % 1000000000 = 0 ∧ ZoneOk z ∧ OneChange z (t / 1000000000) ∧ ShownOnce z (t / 1000000000))
    (hsql : kind = .sqlite → toMillis t ≠ 0) :
    historyTag parse z kind (liveTag parse kind tag now) = some (liveTag parse kind tag now) ∧
    keptTime parse z kind (liveTag parse kind tag now) = some (toMillis t) := by
  rw [hl]
  have hkept : keptTime parse z kind (sqliteFormat t) = some (toMillis t) := by
    unfold keptTime
    rw [hp t ht, Option.bind_some]
    cases kind with
    | memory => rfl
    | files =>
      obtain ⟨h0, hz, h1, h2⟩ := hfiles rfl
      have hm : toMillis t = t := by unfold toMillis; omega
      rw [hm]
      dsimp only
      unfold fileDay lineSec localSec
      have hs : t / secNanos = t / 1000000000 := rfl
      rw [hs, goDate_local hz h1 h2]
      have he : t / 1000000000 * secNanos = t := by unfold secNanos; omega
      rw [he]
    | sqlite =>
      dsimp only
      unfold sqliteValue
      rw [if_neg (hsql rfl), Option.bind_some, format_millis, C34_roundtrip t ht]
    | postgres =>
      dsimp only
      have he : toMillis t % 1000 = 0 := by unfold toMillis; omega
      rw [he, Int.sub_zero]
  refine ⟨?_, hkept⟩
  unfold historyTag
  cases kind with
  | memory => rfl
  | files =>
    dsimp only
    rw [hkept, Option.map_some, format_millis]
  | sqlite => dsimp only; rw [hkept]; rfl
  | postgres => dsimp only; rw [hkept]; rfl

/-- Whatever the server says, the time shown is one of those the theorem above is about, if the server's clock and the
bouncer's are in the years 0 to 9999. -/
theorem C113_shown (parse : Str → Option Int) (kind : StoreKind) (tag : Option Str) (now : Int) (hn : InYears now)
    (hy : ∀ s t, parse s = some t → InYears t) :
    ∃ t, InYears t ∧ liveTag parse kind tag now = sqliteFormat t ∧ (kind = .files → t % 1000000000 = 0) := by
  unfold liveTag
  have : InYears ((parse (tag.getD [])).getD now) := by
    cases h : parse (tag.getD []) with
    | none => exact hn
    | some t => exact hy _ t h
  refine ⟨cutOff kind ((parse (tag.getD [])).getD now), years_cutOff this, server_time _ _, fun hk => ?_⟩
  unfold cutOff
  rw [if_pos hk]
  omega

/-- Central Europe around the end of summer time in 2026: two hours ahead, one hour ahead from 01:00 UTC on October 25. -/
def summerZone : Zone where
  offset := fun u => if u < 63928486800 then 7200 else 3600
  start := fun u => if u < 63928486800 then min u 0 else 63928486800
  stop := fun u => if u < 63928486800 then 63928486800 else max (u + 1) 100000000000

private theorem summerZone_ok : ZoneOk summerZone := by
  intro u
  unfold summerZone
  dsimp only
  refine ⟨?_, ?_, ?_⟩
  · split <;> omega
  · split <;> omega
  · intro v h1 h2
    split at h1 <;> split at h2
    · rw [if_pos h2]; split <;> omega
    · omega
    · omega
    · rw [if_neg (by omega)]; split <;> omega

/-- At noon of that day. -/
example : let t := (63928486800 + 36000) * 1000000000
    InYears t ∧ liveTag sqliteParse .files (some b!"2026-10-25T11:00:00.700Z") 0 = sqliteFormat t ∧ t % 1000000000 = 0 ∧
    ZoneOk summerZone ∧ OneChange summerZone (t / 1000000000) ∧ ShownOnce summerZone (t / 1000000000) ∧
    historyTag sqliteParse summerZone .files (sqliteFormat t) = some b!"2026-10-25T11:00:00.000Z" := by
  intro t
  have ht : t / 1000000000 = 63928522800 := by decide
  refine ⟨by unfold InYears; decide, by decide +kernel, by decide, summerZone_ok, ?_, ?_, by decide +kernel⟩
  · rw [ht]
    refine ⟨7200, 3600, fun u _ _ => ?_, by decide, by decide, by decide, by decide⟩
    unfold summerZone
    dsimp only
    split
    · exact .inl rfl
    · exact .inr rfl
  · rw [ht]
    intro u _ _ h
    unfold summerZone at h
    dsimp only at h
    split at h <;> omega

/-- Is violated at the end of summer time: with log files, a message of the hour that comes twice is shown with its time when
it arrives, and comes from the history as one that was said an hour later. -/
theorem C113_summer_violated : ∃ (z : Zone) (tag : Str) (now : Int), ZoneOk z ∧
    liveTag sqliteParse .files (some tag) now = b!"2026-10-25T00:30:00.000Z" ∧
    historyTag sqliteParse z .files (liveTag sqliteParse .files (some tag) now) = some b!"2026-10-25T01:30:00.000Z" :=
  ⟨summerZone, b!"2026-10-25T00:30:00.000Z", 0, summerZone_ok, by decide +kernel, by decide +kernel⟩

/-- The line of a message in a log file, as the scanning loops of Model/FsStore see it. -/
def summerLine (s : Int) (m : Nat) : FsLine Nat :=
  ⟨40, (goDate summerZone (fileDay summerZone (s * secNanos)) (lineSec summerZone (s * secNanos))).toNat, some m⟩

/-- Is violated at the end of summer time in a second way: of two messages in the same log file, shown as of 00:30 and 01:10,
neither is found when the messages before 01:20 are asked for. The search stops at the first one, whose line it takes for one of
01:30. -/
theorem C113_skipped_violated : ∃ (a b ref : Int), a < b ∧ b < ref ∧
    fileDay summerZone (a * secNanos) = fileDay summerZone (b * secNanos) ∧
    fileDay summerZone (a * secNanos) = fileDay summerZone (ref * secNanos) ∧
    fsBeforeLoop (ref * secNanos).toNat 0 10 (fun _ => true) [summerLine a 1, summerLine b 2] (List.replicate 10 none, 0) =
      (List.replicate 10 none, 0) :=
  ⟨63928486800 - 1800, 63928486800 + 600, 63928486800 + 1200, by decide, by decide, by decide +kernel, by decide +kernel,
    by decide +kernel⟩

/-- Is violated with SQLite: a message that the server dates to the first instant of the year 1 is shown to the clients and
not kept. -/
theorem C113_zero_violated (z : Zone) : liveTag sqliteParse .sqlite (some b!"0001-01-01T00:00:00.000Z") 63928486800000000000 =
      b!"0001-01-01T00:00:00.000Z" ∧
    historyTag sqliteParse z .sqlite b!"0001-01-01T00:00:00.000Z" = none := by
  refine ⟨by decide +kernel, ?_⟩
  have h : sqliteParse b!"0001-01-01T00:00:00.000Z" = some 0 := by decide +kernel
  unfold historyTag keptTime
  rw [h]
  rfl

end Verif.Props
