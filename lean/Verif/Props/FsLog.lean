import Verif.Proof.FsLog
import Verif.Props.FsStore

/-! # C85: log files hold the messages of their conversation

What the log files must hold is computed from the operations and their results (`logsOf`). -/

namespace Verif.Props
open Verif.Model Verif.Spec Verif.Proof

variable {M : Type}

/-! ## Storing and renaming -/

/-- C85 (partial): after any history of messages, renames and restarts, the files that are read for a
conversation hold exactly the lines that were stored for it — also those stored before its network was renamed
—, day by day, in the order in which they were stored.  Missing: a network that takes a name which another one
has given up since the store was opened (`C85_reuse_violated`); names with slashes or backslashes
(`C14_collision_violated`). -/
theorem C85_own_log_partial (srt : List (Str × FsHandle) → List (Str × FsHandle)) (hs : LruSort srt)
    (ops : List (FsOp M)) (hnames : ∀ op ∈ ops, FsNamesOK op) (hclock : FsClock ops)
    (hre : NoReuse (fsExec dayNs srt ops).2) (net ent : Str) (hn : FsName net) (he : FsName ent) (d : Nat) :
    fsFilesOf (fsExec dayNs srt ops).1.disk net ent d
      = ((logsOf (fsExec dayNs srt ops).2 net ent).map (·.1)).filter (fun l => decide (l.time / dayNs = d)) := by
  rw [fs_files (fs_inv hs ops hnames hclock hre).1 net ent hn he d, fsOnDay, List.filter_map]
  rfl

/-- C85: no message is refused or lost because too many files are open. -/
theorem C85_none_lost (srt : List (Str × FsHandle) → List (Str × FsHandle)) (hs : LruSort srt)
    (ops : List (FsOp M)) (hnames : ∀ op ∈ ops, FsNamesOK op) (hclock : FsClock ops)
    (hre : NoReuse (fsExec dayNs srt ops).2) (net ent : Str) (l : FsLine M) (now : Nat) (ok : Bool)
    (h : (FsOp.append net ent l now, ok) ∈ (fsExec dayNs srt ops).2) : ok = true :=
  (fs_inv hs ops hnames hclock hre).2 net ent l now ok h

/-- C85: in every state, a rename that succeeds leaves under the new name exactly what was under the old one,
nothing under the old one, and does not touch the other networks. -/
theorem C85_rename (st : FsSt M) (old new : Str) (h : (fsRenameNetwork st old new).2 = true) (ent : Str) :
    fsFilesOf (fsRenameNetwork st old new).1.disk new ent = fsFilesOf st.disk old ent ∧
    (∀ d, fsFilesOf (fsRenameNetwork st old new).1.disk old ent d = []) ∧
    ∀ other, FsName other → FsName old → FsName new → other ≠ old → other ≠ new →
      fsFilesOf (fsRenameNetwork st old new).1.disk other ent = fsFilesOf st.disk other ent := by
  obtain ⟨-, hne, -, hg, hnodes, -⟩ := fs_rename_get h
  refine ⟨?_, ?_, ?_⟩
  · funext d
    simp only [fsFilesOf, hg, hnodes, if_true]
  · intro d
    simp only [fsFilesOf, hg, if_neg hne, if_true]
  · intro other h1 h2 h3 h4 h5
    rw [fs_escape_id h2, fs_escape_id h3] at hg
    funext d
    simp only [fsFilesOf, hg, hnodes, fs_escape_id h1, if_neg h4, if_neg h5]

/-- C85: a rename that fails changes nothing; with plain names it fails exactly if there are logs under the new
name or none under the old one. -/
theorem C85_rename_failed (srt : List (Str × FsHandle) → List (Str × FsHandle)) (hs : LruSort srt)
    (ops : List (FsOp M)) (hnames : ∀ op ∈ ops, FsNamesOK op) (hclock : FsClock ops)
    (hre : NoReuse (fsExec dayNs srt ops).2) (old new : Str) (ho : FsName old) (hn : FsName new) :
    ((fsRenameNetwork (fsExec dayNs srt ops).1 old new).2 = false ↔
      (∃ ent, logsOf (fsExec dayNs srt ops).2 new ent ≠ []) ∨ ∀ ent, logsOf (fsExec dayNs srt ops).2 old ent = []) ∧
    ((fsRenameNetwork (fsExec dayNs srt ops).1 old new).2 = false →
      (fsRenameNetwork (fsExec dayNs srt ops).1 old new).1 = (fsExec dayNs srt ops).1) := by
  refine ⟨?_, fs_rename_fail⟩
  have hinv := (fs_inv hs ops hnames hclock hre).1
  have hex : ∀ net, fsNetExists (fsExec dayNs srt ops).1.disk net = true ↔
      ∃ ent, logsOf (fsExec dayNs srt ops).2 net ent ≠ [] := by
    intro net
    rw [fs_netExists_iff]
    constructor
    · rintro ⟨e, he, hen⟩
      refine ⟨e.1.ent, (fs_mem_dirs hinv net e.1.ent).1 ?_⟩
      unfold fsTargetDirs
      rw [List.mem_eraseDups]
      exact List.mem_map.2 ⟨e, List.mem_filter.2 ⟨he, by simpa using hen⟩, rfl⟩
    · rintro ⟨ent, hent⟩
      have := (fs_mem_dirs hinv net ent).2 hent
      unfold fsTargetDirs at this
      rw [List.mem_eraseDups] at this
      obtain ⟨e, he, -⟩ := List.mem_map.1 this
      obtain ⟨he, hen⟩ := List.mem_filter.1 he
      exact ⟨e, he, by simpa using hen⟩
  unfold fsRenameNetwork
  rw [fs_escape_id ho, fs_escape_id hn]
  dsimp only
  rw [← hex new]
  have hold : (∀ ent, logsOf (fsExec dayNs srt ops).2 old ent = []) ↔
      ¬ fsNetExists (fsExec dayNs srt ops).1.disk old = true := by
    rw [hex old]; simp
  rw [hold]
  split
  · simp_all
  · split <;> simp_all

/-- A concrete way to sort: by insertion. -/
def lruEx : List (Str × FsHandle) → List (Str × FsHandle) := fsInsSort (fun a b => decide (a.2.lastUse < b.2.lastUse))

/-- Lines of the examples. -/
def lineEx (k : Nat) : FsLine Nat := ⟨20, 738000 * dayNs + k * 1000000000, some k⟩

/-- A history with a rename and a restart. -/
def fsOpsEx : List (FsOp Nat) :=
  [.append b!"libera" b!"#soju" (lineEx 1) (738000 * dayNs + 1000000100),
   .append b!"oftc" b!"#soju" (lineEx 2) (738000 * dayNs + 2000000100),
   .rename b!"libera" b!"chat",
   .append b!"chat" b!"#soju" (lineEx 3) (738000 * dayNs + 3000000100),
   .restart,
   .append b!"libera" b!"#soju" (lineEx 4) (738000 * dayNs + 4000000100)]

example : LruSort lruEx := fs_lru_sort

example : (∀ op ∈ fsOpsEx, FsNamesOK op) ∧ FsClock fsOpsEx ∧
    fsFilesOf (fsExec dayNs lruEx fsOpsEx).1.disk b!"chat" b!"#soju" 738000 = [lineEx 1, lineEx 3] ∧
    fsFilesOf (fsExec dayNs lruEx fsOpsEx).1.disk b!"libera" b!"#soju" 738000 = [lineEx 4] ∧
    (fsExec dayNs lruEx fsOpsEx).2.map (·.2) = [true, true, true, true, true, true] := by decide +kernel

private theorem noReuse_of_check (tr : List (FsOp M × Bool))
    (h : (List.range tr.length).all (fun i => match tr[i]? with
      | some (.append net _ _ _, _) => !(givenUp (tr.take i)).contains net
      | _ => true) = true) : NoReuse tr := by
  intro a net ent l now ok b hab
  rw [List.all_eq_true] at h
  have := h a.length (by rw [hab]; simp)
  rw [hab] at this
  simpa using this

example : NoReuse (fsExec dayNs lruEx fsOpsEx).2 := noReuse_of_check _ (by decide +kernel)

/-- C85 (disagreement): a network is renamed from `libera` to `chat`, and another one is renamed to `libera` (or
created with this name).  The next message of `#soju` on the latter is written to the file of the former. -/
theorem C85_reuse_violated :
    let ops : List (FsOp Nat) :=
      [.append b!"libera" b!"#soju" (lineEx 1) (738000 * dayNs + 1000000100),
       .rename b!"libera" b!"chat",
       .append b!"libera" b!"#soju" (lineEx 2) (738000 * dayNs + 2000000100)]
    (fsExec dayNs lruEx ops).2.map (·.2) = [true, true, true] ∧
    fsFilesOf (fsExec dayNs lruEx ops).1.disk b!"chat" b!"#soju" 738000 = [lineEx 1, lineEx 2] ∧
    fsFilesOf (fsExec dayNs lruEx ops).1.disk b!"libera" b!"#soju" 738000 = [] := by decide +kernel

/-- C85 (disagreement): logs stay when a network is deleted.  If a network is then renamed to the name of the
deleted one, the rename of the logs fails, which is only written to the bouncer's own log: the network is shown
the logs of the deleted one instead of its own. -/
theorem C85_left_behind_violated :
    let ops : List (FsOp Nat) :=
      [.append b!"libera" b!"#soju" (lineEx 1) (738000 * dayNs + 1000000100),
       .append b!"gone" b!"#soju" (lineEx 2) (738000 * dayNs + 2000000100),
       .rename b!"libera" b!"gone"]
    (fsExec dayNs lruEx ops).2.map (·.2) = [true, true, false] ∧
    fsFilesOf (fsExec dayNs lruEx ops).1.disk b!"gone" b!"#soju" 738000 = [lineEx 2] := by decide +kernel

/-! ## The list of conversations -/

private theorem before_le : StrictWeak (fun x y : Str × Nat => decide (x.2 < y.2)) :=
  ⟨by simp, by simp; intros; omega, by simp; intros; omega⟩

private theorem after_le : StrictWeak (fun x y : Str × Nat => decide (y.2 < x.2)) :=
  ⟨by simp, by simp; intros; omega, by simp; intros; omega⟩

/-- The order asked for: oldest first if the first bound is the earlier one, otherwise newest first. -/
def AskedOrder (start stop : Nat) (x y : Str × Nat) : Prop := if start < stop then x.2 ≤ y.2 else y.2 ≤ x.2

/-- C85 (partial): the conversations listed are, in the order asked for, the first `limit` ones of those whose
last line was written — to the second — strictly between the bounds.  Missing: newest first, conversations of
the same second make the order that of no strict order (`C85_order_violated`); the time of a message is not the
time of its writing (`C85_event_violated`); names with slashes or backslashes are listed changed. -/
theorem C85_targets_partial (srt : List (Str × FsHandle) → List (Str × FsHandle)) (hs : LruSort srt)
    (ops : List (FsOp M)) (hnames : ∀ op ∈ ops, FsNamesOK op) (hclock : FsClock ops)
    (hre : NoReuse (fsExec dayNs srt ops).2)
    (srtT : (Str × Nat → Str × Nat → Bool) → List (Str × Nat) → List (Str × Nat)) (hsT : SliceSort srtT)
    (net : Str) (hn : FsName net) (start stop limit : Nat) :
    ∃ all : List (Str × Nat), (all.map (·.1)).Nodup ∧
      (∀ ent t, (ent, t) ∈ all ↔ ∃ w, LastWrite (fsExec dayNs srt ops).2 net ent w ∧ InSecond t w ∧ Between t start stop) ∧
      ((∃ rest, (fsListTargets srtT (fsExec dayNs srt ops).1.disk net start stop limit ++ rest).Perm all) ∧
        (fsListTargets srtT (fsExec dayNs srt ops).1.disk net start stop limit).length = min limit all.length) ∧
      (start < stop ∨ (all.map (·.2)).Nodup → FirstBy (AskedOrder start stop) all limit
        (fsListTargets srtT (fsExec dayNs srt ops).1.disk net start stop limit)) := by
  have hinv := (fs_inv hs ops hnames hclock hre).1
  generalize (fsExec dayNs srt ops).1 = st at hinv ⊢
  generalize (fsExec dayNs srt ops).2 = tr at hinv ⊢
  generalize hall : ((fsTargetDirs st.disk net).map (fun ent => (ent, fsTruncSecond (fsDirTime st.disk net ent)))).filter
      (fun p => fsIsBetween p.2 start stop) = all
  have hres : fsListTargets srtT st.disk net start stop limit = (srtT (fsTargetLess start stop) all).take limit ∧
      True := by
    refine ⟨?_, trivial⟩
    unfold fsListTargets
    rw [fs_escape_id hn]
    dsimp only
    rw [hall]
    split
    · rename_i hno
      have hd : fsTargetDirs st.disk net = [] := by
        rw [List.eq_nil_iff_forall_not_mem]
        intro ent hent
        unfold fsTargetDirs at hent
        rw [List.mem_eraseDups] at hent
        obtain ⟨e, he, -⟩ := List.mem_map.1 hent
        obtain ⟨he, hen⟩ := List.mem_filter.1 he
        have := (fs_netExists_iff st.disk net).2 ⟨e, he, by simpa using hen⟩
        rw [this] at hno
        simp at hno
      have : all = [] := by rw [← hall, hd]; rfl
      rw [this]
      have hp := (hsT (fsTargetLess start stop) []).1
      rw [List.perm_nil.1 hp]
      simp
    · split
      · rfl
      · rename_i hlen
        rw [List.take_of_length_le (by omega)]
  rw [hres.1]
  obtain ⟨hperm, hsorted⟩ := hsT (fsTargetLess start stop) all
  have hsplit := List.take_append_drop limit (srtT (fsTargetLess start stop) all)
  have hlen : ((srtT (fsTargetLess start stop) all).take limit).length = min limit all.length := by
    rw [List.length_take, hperm.length_eq]
  refine ⟨all, ?_, ?_, ⟨⟨(srtT (fsTargetLess start stop) all).drop limit, by rw [hsplit]; exact hperm⟩, hlen⟩, ?_⟩
  · rw [← hall]
    refine (List.Nodup.sublist (List.Sublist.map _ List.filter_sublist) ?_)
    rw [List.map_map]
    have : ((·.1) ∘ fun ent => (ent, fsTruncSecond (fsDirTime st.disk net ent))) = (id : Str → Str) := rfl
    rw [this, List.map_id]
    exact fs_nodup_eraseDups _ _ (Nat.le_refl _)
  · intro ent t
    rw [← hall, List.mem_filter, List.mem_map]
    constructor
    · rintro ⟨⟨e, he, heq⟩, hb⟩
      simp only [Prod.mk.injEq] at heq
      obtain ⟨rfl, rfl⟩ := heq
      obtain ⟨w, hw⟩ := (fs_lastWrite_iff tr net e).1 ((fs_mem_dirs hinv net e).1 he)
      refine ⟨w, hw, ?_, (fs_between_iff _ _ _).1 hb⟩
      rw [fs_dirTime hinv net e w hw]
      exact fs_second w
    · rintro ⟨w, hw, hsec, hb⟩
      refine ⟨⟨ent, (fs_mem_dirs hinv net ent).2 ((fs_lastWrite_iff tr net ent).2 ⟨w, hw⟩), ?_⟩,
        (fs_between_iff _ _ _).2 hb⟩
      rw [fs_dirTime hinv net ent w hw, fs_second_unique hsec (fs_second w)]
  · intro hd
    refine ⟨(srtT (fsTargetLess start stop) all).drop limit, by rw [hsplit]; exact hperm, ?_, hlen⟩
    rw [hsplit]
    by_cases hlt : start < stop
    · refine (hsorted _ before_le (List.pairwise_of_forall ?_)).imp ?_
      · intro x y; simp [fsTargetLess, hlt]
      · intro x y hxy; simpa [AskedOrder, hlt] using hxy
    · rcases hd with hd | hd
      · exact absurd hd hlt
      · unfold List.Nodup at hd
        rw [List.pairwise_map] at hd
        refine (hsorted _ after_le (hd.imp ?_)).imp ?_
        · intro x y hxy
          simp only [fsTargetLess, if_neg hlt]
          constructor
          · by_cases h1 : x.2 < y.2
            · simp [h1]; omega
            · simp [h1]; omega
          · by_cases h1 : y.2 < x.2
            · simp [h1]; omega
            · simp [h1]; omega
        · intro x y hxy; simpa [AskedOrder, hlt] using hxy

example : SliceSort (α := Str × Nat) fsInsSort := fs_ins_sort

example : fsListTargets fsInsSort (fsExec dayNs lruEx fsOpsEx).1.disk b!"chat"
    (738000 * dayNs) (738001 * dayNs) 10 = [(b!"#soju", 738000 * dayNs + 3000000000)] := by decide +kernel

/-- C85 (disagreement): newest first, the comparison given to the sorting function says of two conversations of
the same second that each comes before the other, which the function's documentation forbids. -/
theorem C85_order_violated (start stop : Nat) (h : stop ≤ start) :
    ¬ StrictWeak (fsTargetLess start stop) ∧ ∀ x y : Str × Nat, x.2 = y.2 →
      fsTargetLess start stop x y = true ∧ fsTargetLess start stop y x = true := by
  have key : ∀ x y : Str × Nat, x.2 = y.2 → fsTargetLess start stop x y = true := by
    intro x y hxy
    simp [fsTargetLess, show ¬ start < stop by omega, hxy]
  refine ⟨fun hw => ?_, fun x y hxy => ⟨key x y hxy, key y x hxy.symm⟩⟩
  have := hw.1 ([], 0)
  rw [key ([], 0) ([], 0) rfl] at this
  simp at this

/-- C85 (disagreement): a conversation in which nothing but an event (say, a join) was logged is listed although
it has no message, to a client that did not ask for events. -/
theorem C85_event_violated :
    let ops : List (FsOp Nat) :=
      [.append b!"libera" b!"#soju" ⟨20, 738000 * dayNs + 1000000000, none⟩ (738000 * dayNs + 1000000100)]
    fsListTargets fsInsSort (fsExec dayNs lruEx ops).1.disk b!"libera" (738000 * dayNs) (738001 * dayNs) 10
        = [(b!"#soju", 738000 * dayNs + 1000000000)] ∧
      entries ((logsOf (fsExec dayNs lruEx ops).2 b!"libera" b!"#soju").map (·.1)) = [] := by decide +kernel

/-! ## Search -/

/-- A message that was searched for: by its sender, if one is given, and a part of its text, if one is given,
whatever the case of the letters. -/
def SearchMatch (lower : Str → Str) (name text : M → Str) (sender query : Str) (m : M) : Prop :=
  (sender ≠ [] → name m = sender) ∧ (lower query ≠ [] → lower query <:+: lower (text m))

private theorem sel_iff (lower : Str → Str) (name text : M → Str) (sender query : Str) (m : M) :
    fsSearchSel lower name text sender query m = true ↔ SearchMatch lower name text sender query m := by
  unfold fsSearchSel SearchMatch
  rw [← fs_contains_iff]
  by_cases h1 : sender = [] <;> by_cases h2 : name m = sender <;> by_cases h3 : lower query = [] <;>
    cases fsContains (lower query) (lower (text m)) <;> simp [*]

private theorem mem_window {lo hi : Nat} {sel : M → Bool} {ls : List (FsLine M)} {m : M}
    (h : m ∈ window lo hi sel (entries ls)) :
    ∃ l ∈ ls, l.msg = some m ∧ lo < l.time ∧ l.time < hi ∧ sel m = true := by
  unfold window entries at h
  obtain ⟨e, he, rfl⟩ := List.mem_map.1 h
  obtain ⟨he, hc⟩ := List.mem_filter.1 he
  obtain ⟨l, hl, hm⟩ := List.mem_filterMap.1 he
  simp only [Option.map_eq_some_iff] at hm
  obtain ⟨m, hm, rfl⟩ := hm
  simp only [Bool.and_eq_true, decide_eq_true_eq] at hc
  exact ⟨l, hl, hm, hc.1.1, hc.1.2, hc.2⟩

/-- C85: every message that a search returns was logged in the conversation, is one of those searched for and
lies strictly between the bounds; there are at most as many as asked for. -/
theorem C85_search_sound (lower : Str → Str) (name text : M → Str) (ls : List (FsLine M)) (h : FsHistory ls)
    (now start stop limit : Nat) (hnow : 0 < now) (sender query : Str) :
    (∀ x ∈ fsSearch dayNs lower name text (fsRun ls) now start stop limit sender query, ∃ m, x = some m ∧
      SearchMatch lower name text sender query m ∧ ∃ l ∈ ls, l.msg = some m ∧ start < l.time ∧
        l.time < if stop = 0 then now else stop) ∧
    (fsSearch dayNs lower name text (fsRun ls) now start stop limit sender query).length ≤ limit := by
  unfold fsSearch
  split
  · unfold fsGetAfter
    refine ⟨?_, by rw [List.length_map]; exact fs_afterDays_length _ _ _ _ _ _ _ _⟩
    intro x hx
    obtain ⟨m, hm, rfl⟩ := List.mem_map.1 hx
    obtain ⟨d, l, hl, h1, h2, h3, h4⟩ := fs_afterDays_sound dayNs (by decide) _ _ _ _ _ _ _ _ hm
    refine ⟨m, rfl, (sel_iff ..).1 h4, l, ?_, h1, h2, h3⟩
    rw [fsRun_eq] at hl
    exact (List.mem_filter.1 hl).1
  · rename_i hs
    have hs : start = 0 := Decidable.of_not_not hs
    subst hs
    have hkey : ∀ s, 0 < s →
        (∀ x ∈ fsGetBefore dayNs (fsRun ls) now s 0 limit (fsSearchSel lower name text sender query), ∃ m, x = some m ∧
          SearchMatch lower name text sender query m ∧ ∃ l ∈ ls, l.msg = some m ∧ 0 < l.time ∧ l.time < s) ∧
        (fsGetBefore dayNs (fsRun ls) now s 0 limit (fsSearchSel lower name text sender query)).length ≤ limit := by
      intro s hs
      obtain ⟨g, hr, -⟩ := C13_before_general ls h now s 0 limit hs (fsSearchSel lower name text sender query)
      rw [hr]
      refine ⟨?_, by rw [List.length_map, lastN_length]; omega⟩
      intro x hx
      obtain ⟨m, hm, rfl⟩ := List.mem_map.1 hx
      obtain ⟨l, hl, h1, h2, h3, h4⟩ := mem_window (List.mem_of_mem_drop hm)
      exact ⟨m, rfl, (sel_iff ..).1 h4, l, (List.mem_filter.1 hl).1, h1, h2, h3⟩
    by_cases hst : stop = 0
    · subst hst
      rw [C13_before_now, if_pos rfl]
      exact hkey now hnow
    · rw [if_neg hst]
      exact hkey stop (by omega)

open Classical in
/-- C85 (partial): a search with a lower bound, less than 100 days before the upper one, returns exactly the
first `limit` messages searched for between the bounds, in chronological order.  Missing: messages logged
exactly at a midnight (`C13_midnight_violated`) and gaps of 100 days (`C13_gap_violated`). -/
theorem C85_search_partial (lower : Str → Str) (name text : M → Str) (ls : List (FsLine M)) (h : FsHistory ls)
    (now start stop limit : Nat) (hs : 0 < start) (he : 0 < stop) (sender query : Str)
    (hgap : stop / dayNs < start / dayNs + 100)
    (hmid : ∀ l ∈ ls, l.msg ≠ none → start < l.time → l.time % dayNs ≠ 0) :
    fsSearch dayNs lower name text (fsRun ls) now start stop limit sender query
      = ((window start stop (fun m => decide (SearchMatch lower name text sender query m)) (entries ls)).take limit).map
          some := by
  unfold fsSearch
  rw [if_pos (by omega), C13_after_window_partial ls h now start stop limit he _ hgap hmid]
  congr 3
  funext m
  rw [Bool.eq_iff_iff, decide_eq_true_eq]
  exact sel_iff ..

open Classical in
/-- C85 (partial): a search without lower bound returns the last `limit` messages searched for before the upper
bound, in chronological order, if there are no 100 days without one of them; otherwise the last ones of the days
after such a gap. -/
theorem C85_search_latest_partial (lower : Str → Str) (name text : M → Str) (ls : List (FsLine M)) (h : FsHistory ls)
    (now stop limit : Nat) (he : 0 < stop) (sender query : Str) :
    ∃ g, fsSearch dayNs lower name text (fsRun ls) now 0 stop limit sender query
        = (lastN limit (window 0 stop (fun m => decide (SearchMatch lower name text sender query m))
            (entries (onDays g (stop / dayNs + 1) ls)))).map some ∧
      (lastN limit (window 0 stop (fun m => decide (SearchMatch lower name text sender query m))
            (entries (onDays g (stop / dayNs + 1) ls)))
          = lastN limit (window 0 stop (fun m => decide (SearchMatch lower name text sender query m)) (entries ls)) ∨
        (g + 100 ≤ stop / dayNs + 1 ∧ window 0 stop (fun m => decide (SearchMatch lower name text sender query m))
          (entries (onDays g (g + 100) ls)) = [])) := by
  have hsel : fsSearchSel lower name text sender query
      = fun m => decide (SearchMatch lower name text sender query m) := by
    funext m
    rw [Bool.eq_iff_iff, decide_eq_true_eq]
    exact sel_iff ..
  unfold fsSearch
  rw [if_neg (by simp), hsel]
  exact C13_before_general ls h now stop 0 limit he _

example : FsHistory [lineEx 1, lineEx 2, lineEx 3] ∧
    fsSearch dayNs (fun s => s.map (fun c => if 65 ≤ c ∧ c ≤ 90 then c + 32 else c)) (fun _ => b!"alice")
      (fun k => if k = 2 then b!"nothing" else b!"Hello World") (fsRun [lineEx 1, lineEx 2, lineEx 3])
      (738001 * dayNs) 0 0 10 b!"alice" b!"WORLD" = [some 1, some 3] := by
  unfold FsHistory
  decide +kernel

end Verif.Props
