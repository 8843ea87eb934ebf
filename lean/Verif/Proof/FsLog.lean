import Verif.Spec.FsLog
import Verif.Proof.GoMap
import Verif.Proof.Util

/-! # Lemmas on the files of the log-file store -/

namespace Verif.Proof
open Verif.Model Verif.Spec

variable {M : Type}

/-! ## The disk -/

/-- The file at a path. -/
def fsNodeAt (disk : FsDisk M) (p : FsPath) : Option (FsNode M) := (disk.paths.get p).bind (fun i => disk.nodes[i]?)

/-- No two paths lead to the same file, and every path leads to one. -/
structure FsDiskOK (disk : FsDisk M) : Prop where
  keys : (disk.paths.map (·.1)).Nodup
  inj : ∀ p q i, disk.paths.get p = some i → disk.paths.get q = some i → p = q
  bound : ∀ p i, disk.paths.get p = some i → i < disk.nodes.length

theorem fs_nodeAt_isSome {disk : FsDisk M} (h : FsDiskOK disk) (p : FsPath) :
    (fsNodeAt disk p).isSome ↔ ∃ i, disk.paths.get p = some i := by
  unfold fsNodeAt
  cases hg : disk.paths.get p with
  | none => simp
  | some i => simp [h.bound p i hg]

theorem fs_open {disk : FsDisk M} (h : FsDiskOK disk) (p : FsPath) (now : Nat) :
    FsDiskOK (fsOpen disk p now).1 ∧ (fsOpen disk p now).1.paths.get p = some (fsOpen disk p now).2 ∧
      ∀ q, fsNodeAt (fsOpen disk p now).1 q
        = if q = p then some ((fsNodeAt disk p).getD ⟨[], now⟩) else fsNodeAt disk q := by
  unfold fsOpen
  cases hg : disk.paths.get p with
  | some i =>
    refine ⟨h, hg, ?_⟩
    show ∀ q, fsNodeAt disk q = _
    intro q
    split
    · rename_i hq
      subst hq
      simp [fsNodeAt, hg, h.bound q i hg]
    · rfl
  | none =>
    have hk := mset_nodup h.keys p disk.nodes.length
    refine ⟨⟨hk, ?_, ?_⟩, ?_, ?_⟩
    · intro a b i ha hb
      simp only [mget_mset] at ha hb
      split at ha <;> split at hb
      · simp_all
      · have := h.bound _ _ hb; simp_all
      · have := h.bound _ _ ha; simp_all
      · exact h.inj a b i ha hb
    · intro a i ha
      simp only [mget_mset, List.length_append, List.length_singleton] at ha ⊢
      split at ha
      · simp at ha; omega
      · have := h.bound _ _ ha; omega
    · simp [mget_mset]
    · intro q
      unfold fsNodeAt
      simp only [mget_mset]
      by_cases hq : q = p
      · subst hq
        simp [hg]
      · rw [if_neg hq, if_neg (fun e => hq e.symm)]
        cases hq' : disk.paths.get q with
        | none => rfl
        | some i => simp [List.getElem?_append_left (h.bound q i hq')]

theorem fs_write {disk : FsDisk M} (h : FsDiskOK disk) (p : FsPath) (i : Nat) (hi : disk.paths.get p = some i)
    (l : FsLine M) (now : Nat) :
    FsDiskOK (fsWrite disk i l now) ∧
      ∀ q, fsNodeAt (fsWrite disk i l now) q
        = if q = p then (fsNodeAt disk p).map (fun n => ⟨n.lines ++ [l], now⟩) else fsNodeAt disk q := by
  refine ⟨⟨h.keys, h.inj, ?_⟩, ?_⟩
  · intro a j ha
    have := h.bound a j ha
    simpa [fsWrite] using this
  · intro q
    unfold fsNodeAt fsWrite
    simp only
    by_cases hq : q = p
    · subst hq
      simp [hi, List.getElem?_modify]
    · rw [if_neg hq]
      cases hq' : disk.paths.get q with
      | none => rfl
      | some j =>
        have hij : i ≠ j := fun e => hq (h.inj q p i (by rw [hq', e]) hi)
        simp [List.getElem?_modify, hij]

/-! ## Renaming a directory -/

theorem fs_get_moved (paths : GoMap FsPath Nat) (old new : Str) (hne : old ≠ new)
    (hno : ∀ e ∈ paths, e.1.net ≠ new) (q : FsPath) :
    GoMap.get (paths.map (fun e => if e.1.net = old then ({ e.1 with net := new }, e.2) else e)) q
      = if q.net = new then paths.get { q with net := old } else if q.net = old then none else paths.get q := by
  obtain ⟨qn, qe, qd⟩ := q
  induction paths with
  | nil => simp only [List.map_nil, GoMap.get]; (repeat' split) <;> rfl
  | cons e l ih =>
    obtain ⟨⟨en, ee, ed⟩, i⟩ := e
    have IH := ih (fun x hx => hno x (List.mem_cons_of_mem _ hx))
    have hen : en ≠ new := hno (⟨en, ee, ed⟩, i) (by simp)
    simp only [List.map_cons] at IH ⊢
    by_cases h1 : en = old
    · subst h1
      simp only [if_true, GoMap.get, IH]
      by_cases h2 : qn = new
      · subst h2; simp [FsPath.mk.injEq]
      · by_cases h3 : qn = en
        · subst h3; simp [h2, Ne.symm h2, FsPath.mk.injEq]
        · simp [h2, h3, Ne.symm h2, Ne.symm h3, FsPath.mk.injEq]
    · simp only [if_neg h1, GoMap.get, IH]
      by_cases h2 : qn = new
      · subst h2; simp [hen, h1, FsPath.mk.injEq]
      · by_cases h3 : qn = old
        · subst h3; simp [h2, h1, FsPath.mk.injEq]
        · simp [h2, h3, FsPath.mk.injEq]

theorem fs_netExists_iff (disk : FsDisk M) (dir : Str) :
    fsNetExists disk dir = true ↔ ∃ e ∈ disk.paths, e.1.net = dir := by
  simp [fsNetExists]

theorem fs_keys_moved (paths : GoMap FsPath Nat) (old new : Str)
    (hno : ∀ e ∈ paths, e.1.net ≠ new) (hk : (paths.map (·.1)).Nodup) :
    ((paths.map (fun e => if e.1.net = old then ({ e.1 with net := new }, e.2) else e)).map (·.1)).Nodup := by
  rw [List.map_map]
  unfold List.Nodup at hk ⊢
  rw [List.pairwise_map] at hk ⊢
  refine hk.imp_of_mem ?_
  intro a b ha hb hab
  have h1 := hno a ha
  have h2 := hno b hb
  obtain ⟨⟨an, ae, ad⟩, ai⟩ := a
  obtain ⟨⟨bn, be, bd⟩, bi⟩ := b
  simp only [Function.comp, ne_eq, FsPath.mk.injEq] at *
  split <;> split <;> simp_all
  · intro e; exact absurd e.symm h2

/-- What a successful rename does. -/
theorem fs_rename_get {st : FsSt M} {old new : Str} (hok : (fsRenameNetwork st old new).2 = true) :
    (fsRenameNetwork st old new).1.files = st.files ∧
      escapeFilename old ≠ escapeFilename new ∧ (∀ e ∈ st.disk.paths, e.1.net ≠ escapeFilename new) ∧
      (∀ q, (fsRenameNetwork st old new).1.disk.paths.get q
        = if q.net = escapeFilename new then st.disk.paths.get { q with net := escapeFilename old }
          else if q.net = escapeFilename old then none else st.disk.paths.get q) ∧
      (fsRenameNetwork st old new).1.disk.nodes = st.disk.nodes ∧
      ((st.disk.paths.map (·.1)).Nodup → ((fsRenameNetwork st old new).1.disk.paths.map (·.1)).Nodup) := by
  unfold fsRenameNetwork at hok ⊢
  simp only at hok ⊢
  split at hok
  · simp at hok
  · rename_i h1
    split at hok
    · simp at hok
    · rename_i h2
      rw [if_neg h1, if_neg h2]
      have hno : ∀ e ∈ st.disk.paths, e.1.net ≠ escapeFilename new := by
        intro e he hn
        exact h1 ((fs_netExists_iff _ _).2 ⟨e, he, hn⟩)
      obtain ⟨e, he, hen⟩ := (fs_netExists_iff _ _).1 (by simpa using h2 : fsNetExists st.disk (escapeFilename old) = true)
      have hne : escapeFilename old ≠ escapeFilename new := by rw [← hen]; exact hno e he
      exact ⟨rfl, hne, hno, fs_get_moved st.disk.paths _ _ hne hno, rfl, fs_keys_moved _ _ _ hno⟩

theorem fs_rename_ok {st : FsSt M} (h : FsDiskOK st.disk) {old new : Str}
    (hok : (fsRenameNetwork st old new).2 = true) : FsDiskOK (fsRenameNetwork st old new).1.disk := by
  obtain ⟨-, -, -, hg, hnn, hk⟩ := fs_rename_get hok
  refine ⟨hk h.keys, ?_, ?_⟩
  · intro p q i hp hq
    simp only [hg] at hp hq
    obtain ⟨pn, pe, pd⟩ := p
    obtain ⟨qn, qe, qd⟩ := q
    simp only at hp hq
    have key : ∀ a b : FsPath, st.disk.paths.get a = some i → st.disk.paths.get b = some i → a = b :=
      fun a b ha hb => h.inj a b i ha hb
    split at hp
    · split at hq
      · have := key _ _ hp hq; simp_all
      · split at hq
        · simp at hq
        · have := key _ _ hp hq; simp_all
    · split at hp
      · simp at hp
      · split at hq
        · have := key _ _ hp hq; simp_all
        · split at hq
          · simp at hq
          · exact key _ _ hp hq
  · intro p i hp
    rw [hnn]
    simp only [hg] at hp
    split at hp
    · exact h.bound _ _ hp
    · split at hp
      · simp at hp
      · exact h.bound _ _ hp

theorem fs_rename_fail {st : FsSt M} {old new : Str} (hok : (fsRenameNetwork st old new).2 = false) :
    (fsRenameNetwork st old new).1 = st := by
  unfold fsRenameNetwork at hok ⊢
  simp only at hok ⊢
  (repeat' split at hok) <;> simp_all

/-! ## Closing files -/

theorem fs_del_all (es : List (Str × FsHandle)) (fs : GoMap Str FsHandle) (k : Str) :
    GoMap.get (es.foldl (fun fs e => fs.del e.1) fs) k = if k ∈ es.map (·.1) then none else fs.get k := by
  induction es generalizing fs with
  | nil => simp
  | cons e l ih =>
    simp only [List.foldl_cons, ih, mget_mdel, List.map_cons, List.mem_cons]
    by_cases h1 : k ∈ l.map (·.1)
    · simp [h1]
    · by_cases h2 : k = e.1
      · simp [h2]
      · simp [h1, h2, Ne.symm h2]

theorem fs_del_nodup (es : List (Str × FsHandle)) (fs : GoMap Str FsHandle) (h : (fs.map (·.1)).Nodup) :
    ((es.foldl (fun fs e => fs.del e.1) fs).map (·.1)).Nodup := by
  induction es generalizing fs with
  | nil => exact h
  | cons e l ih => exact ih _ (mdel_nodup h _)

theorem fs_evict_nodup (srt : List (Str × FsHandle) → List (Str × FsHandle)) (fs : GoMap Str FsHandle)
    (h : (fs.map (·.1)).Nodup) : ((fsEvict srt fs).map (·.1)).Nodup := by
  unfold fsEvict
  split
  · exact fs_del_nodup _ _ h
  · exact h

theorem fs_evict_sub (srt : List (Str × FsHandle) → List (Str × FsHandle)) (fs : GoMap Str FsHandle) (k : Str)
    (v : FsHandle) (h : (fsEvict srt fs).get k = some v) : fs.get k = some v := by
  unfold fsEvict at h
  split at h
  · rw [fs_del_all] at h
    split at h
    · simp at h
    · exact h
  · exact h

/-- The file that was used last stays open. -/
theorem fs_evict_keeps {srt : List (Str × FsHandle) → List (Str × FsHandle)} (hs : LruSort srt)
    (fs : GoMap Str FsHandle) (hn : (fs.map (·.1)).Nodup) (k : Str) (v : FsHandle) (hv : fs.get k = some v)
    (hlast : ∀ e ∈ fs, e.1 ≠ k → e.2.lastUse < v.lastUse) : (fsEvict srt fs).get k = some v := by
  unfold fsEvict
  split
  · rename_i hlen
    rw [fs_del_all, if_neg, hv]
    intro hk
    obtain ⟨e, he, hek⟩ := List.mem_map.1 hk
    obtain ⟨hp, hsrt⟩ := hs fs
    have hsplit := List.take_append_drop (fs.length - fsMaxFiles) (srt fs)
    rw [← hsplit] at hsrt
    have hcross := (List.pairwise_append.1 hsrt).2.2 e he
    have hnd : ((srt fs).map (·.1)).Nodup := (hp.map (·.1)).nodup_iff.2 hn
    have hdl : ((srt fs).drop (fs.length - fsMaxFiles)).length = fsMaxFiles := by
      rw [List.length_drop, hp.length_eq]; omega
    have hemem : e ∈ fs := hp.mem_iff.1 (List.mem_of_mem_take he)
    have hev : e.2 = v := by
      have := mget_of_mem hn (k := e.1) (e := e.2) hemem
      rw [hek, hv] at this
      simpa using this.symm
    cases hd : (srt fs).drop (fs.length - fsMaxFiles) with
    | nil => rw [hd] at hdl; simp [fsMaxFiles] at hdl
    | cons x r =>
      have hx : x ∈ (srt fs).drop (fs.length - fsMaxFiles) := by rw [hd]; simp
      have h1 := hcross x hx
      have hxm : x ∈ fs := hp.mem_iff.1 (List.mem_of_mem_drop hx)
      have hxk : x.1 ≠ k := by
        intro hxk
        have hnd' := hnd
        rw [← hsplit, List.map_append, List.nodup_append] at hnd'
        exact hnd'.2.2 e.1 (List.mem_map.2 ⟨e, he, rfl⟩) x.1 (List.mem_map.2 ⟨x, hx, rfl⟩) (by rw [hek, hxk])
      have h2 := hlast x hxm hxk
      rw [hev] at h1
      omega
  · exact hv

/-! ## The invariant -/

theorem fs_escape_id {name : Str} (h : FsName name) : escapeFilename name = name := by
  unfold escapeFilename
  rw [if_neg h.1.2.2.1, if_neg h.1.2.2.2]
  conv => rhs; rw [← List.map_id name]
  apply List.map_congr_left
  intro c hc
  rw [if_neg]
  · rfl
  · rintro (rfl | rfl)
    · exact h.1.2.1 hc
    · exact h.2 hc

/-- The lines of a day, with the instants of their writing. -/
def fsOnDay (D : Nat) (log : List (FsLine M × Nat)) (d : Nat) : List (FsLine M × Nat) :=
  log.filter (fun x => decide (x.1.time / D = d))

/-- A file holds the lines of a day and was last written to when the last of them was written. -/
def FsNodeFor (L : List (FsLine M × Nat)) : Option (FsNode M) → Prop
  | none => L = []
  | some n => n.lines = L.map (·.1) ∧ (L.map (·.2)).getLast? = some n.mtime

/-- The disk agrees with the specification, and open files are where their path leads. -/
structure FsInv (D : Nat) (ops : List (FsOp M)) (st : FsSt M) (tr : List (FsOp M × Bool)) : Prop where
  disk : FsDiskOK st.disk
  plain : ∀ net ent, logsOf tr net ent ≠ [] → FsName net ∧ FsName ent
  node : ∀ net ent d, FsNodeFor (fsOnDay D (logsOf tr net ent) d) (fsNodeAt st.disk ⟨net, ent, d⟩)
  mono : ∀ net ent, (logsOf tr net ent).Pairwise (fun a b => a.2 < b.2)
  times : ∀ net ent, ∀ x ∈ logsOf tr net ent, x.2 ∈ fsTimes ops
  fkeys : (st.files.map (·.1)).Nodup
  handle : ∀ e h, st.files.get e = some h → h.lastUse ∈ fsTimes ops ∧
    (st.disk.paths.get h.path = some h.node ∨ h.path.net ∈ givenUp tr)

theorem fs_logs_snoc (tr : List (FsOp M × Bool)) (x : FsOp M × Bool) :
    logsOf (tr ++ [x]) = logsStep (logsOf tr) x := by
  simp [logsOf, List.foldl_append]

theorem fs_given_snoc (tr : List (FsOp M × Bool)) (x : FsOp M × Bool) :
    givenUp (tr ++ [x]) = givenStep (givenUp tr) x := by
  simp [givenUp, List.foldl_append]

theorem fs_exec_snoc (D : Nat) (srt : List (Str × FsHandle) → List (Str × FsHandle)) (ops : List (FsOp M)) (op : FsOp M) :
    fsExec D srt (ops ++ [op]) = ((fsStep D srt (fsExec D srt ops).1 op).1,
      (fsExec D srt ops).2 ++ [(op, (fsStep D srt (fsExec D srt ops).1 op).2)]) := by
  simp [fsExec, List.foldl_append]

theorem fs_times_snoc (ops : List (FsOp M)) (op : FsOp M) :
    fsTimes (ops ++ [op]) = fsTimes ops ++ (match op with | .append _ _ _ now => [now] | _ => []) := by
  cases op <;> simp [fsTimes]

theorem fs_times_mono (ops : List (FsOp M)) (op : FsOp M) {t : Nat} (h : t ∈ fsTimes ops) : t ∈ fsTimes (ops ++ [op]) := by
  rw [fs_times_snoc]
  exact List.mem_append_left _ h

theorem fs_append_inv {D : Nat} {srt : List (Str × FsHandle) → List (Str × FsHandle)} (hs : LruSort srt)
    {ops : List (FsOp M)} {st : FsSt M} {tr : List (FsOp M × Bool)} (h : FsInv D ops st tr) (net ent : Str)
    (l : FsLine M) (now : Nat) (hn : FsName net) (he : FsName ent) (hclock : ∀ t ∈ fsTimes ops, t < now)
    (hre : net ∉ givenUp tr) :
    (fsAppendMsg D srt st net ent l now).2 = true ∧
      FsInv D (ops ++ [.append net ent l now]) (fsAppendMsg D srt st net ent l now).1
        (tr ++ [(.append net ent l now, true)]) := by
  have hpath : fsLogPath D net ent l.time = ⟨net, ent, l.time / D⟩ := by
    unfold fsLogPath; rw [fs_escape_id hn, fs_escape_id he]
  unfold fsAppendMsg
  rw [hpath]
  dsimp only
  generalize ho : fsOpened st ent ⟨net, ent, l.time / D⟩ now = o
  have hopen : FsDiskOK o.1 ∧ o.1.paths.get ⟨net, ent, l.time / D⟩ = some o.2 ∧
      (∀ q, fsNodeAt o.1 q = if q = ⟨net, ent, l.time / D⟩ then
        some ((fsNodeAt st.disk ⟨net, ent, l.time / D⟩).getD ⟨[], now⟩) else fsNodeAt st.disk q) ∧
      ∀ q i, st.disk.paths.get q = some i → o.1.paths.get q = some i := by
    have hop := fs_open h.disk ⟨net, ent, l.time / D⟩ now
    have hext : ∀ q i, st.disk.paths.get q = some i → (fsOpen st.disk ⟨net, ent, l.time / D⟩ now).1.paths.get q = some i := by
      intro q i hq
      unfold fsOpen
      split
      · exact hq
      · rename_i hnone
        simp only [mget_mset]
        split
        · rename_i heq; rw [← heq, hnone] at hq; simp at hq
        · exact hq
    subst ho
    unfold fsOpened
    split
    · rename_i hd hh
      split
      · exact ⟨hop.1, hop.2.1, hop.2.2, hext⟩
      · rename_i hp
        have hp : hd.path = ⟨net, ent, l.time / D⟩ := Decidable.of_not_not hp
        have hg : st.disk.paths.get ⟨net, ent, l.time / D⟩ = some hd.node := by
          rcases (h.handle ent hd hh).2 with hx | hx
          · rw [← hp]; exact hx
          · rw [hp] at hx; exact absurd hx hre
        refine ⟨h.disk, hg, ?_, fun q i hq => hq⟩
        intro q
        split
        · rename_i hq
          subst hq
          have := (fs_nodeAt_isSome h.disk ⟨net, ent, l.time / D⟩).2 ⟨_, hg⟩
          cases hx : fsNodeAt st.disk ⟨net, ent, l.time / D⟩ with
          | none => rw [hx] at this; simp at this
          | some n => rfl
        · rfl
    · exact ⟨hop.1, hop.2.1, hop.2.2, hext⟩
  clear ho
  obtain ⟨hok, hget, hnode, hext⟩ := hopen
  have hset := mset_nodup h.fkeys ent (⟨⟨net, ent, l.time / D⟩, o.2, now⟩ : FsHandle)
  have hkeep : (fsEvict srt (st.files.set ent ⟨⟨net, ent, l.time / D⟩, o.2, now⟩)).get ent
      = some ⟨⟨net, ent, l.time / D⟩, o.2, now⟩ := by
    refine fs_evict_keeps hs _ hset ent _ (by rw [mget_mset, if_pos rfl]) ?_
    intro e hem hek
    have := mget_of_mem hset (k := e.1) (e := e.2) hem
    rw [mget_mset, if_neg (fun x => hek x.symm)] at this
    exact hclock _ (h.handle e.1 e.2 this).1
  simp only [hkeep, true_and]
  obtain ⟨hwok, hwnode⟩ := fs_write hok _ _ hget l now
  have hlog : ∀ n e, logsOf (tr ++ [(FsOp.append net ent l now, true)]) n e
      = if n = net ∧ e = ent then logsOf tr n e ++ [(l, now)] else logsOf tr n e := by
    intro n e; rw [fs_logs_snoc]; rfl
  refine ⟨hwok, ?_, ?_, ?_, ?_, fs_evict_nodup srt _ hset, ?_⟩
  · intro n e hne
    rw [hlog] at hne
    split at hne
    · rename_i hx; rw [hx.1, hx.2]; exact ⟨hn, he⟩
    · exact h.plain n e hne
  · intro n e d
    rw [hlog, hwnode]
    have IH := h.node n e d
    by_cases hx : n = net ∧ e = ent
    · obtain ⟨rfl, rfl⟩ := hx
      rw [if_pos ⟨rfl, rfl⟩]
      by_cases hd : d = l.time / D
      · subst hd
        have hD : fsOnDay D (logsOf tr n e ++ [(l, now)]) (l.time / D)
            = fsOnDay D (logsOf tr n e) (l.time / D) ++ [(l, now)] := by
          simp [fsOnDay, List.filter_append]
        rw [hD]
        simp only [if_true, hnode, Option.map_some]
        refine ⟨?_, by simp⟩
        cases hnn : fsNodeAt st.disk ⟨n, e, l.time / D⟩ with
        | none =>
          rw [hnn] at IH
          have IH : fsOnDay D (logsOf tr n e) (l.time / D) = [] := IH
          simp [IH]
        | some nd =>
          rw [hnn] at IH
          simp [IH.1]
      · have hD : fsOnDay D (logsOf tr n e ++ [(l, now)]) d = fsOnDay D (logsOf tr n e) d := by
          simp [fsOnDay, List.filter_append, Ne.symm hd]
        rw [hD, if_neg (by simpa using hd), hnode, if_neg (by simpa using hd)]
        exact IH
    · rw [if_neg hx, if_neg (by simp only [FsPath.mk.injEq]; exact fun y => hx ⟨y.1, y.2.1⟩),
        hnode, if_neg (by simp only [FsPath.mk.injEq]; exact fun y => hx ⟨y.1, y.2.1⟩)]
      exact IH
  · intro n e
    rw [hlog]
    split
    · rw [List.pairwise_append]
      refine ⟨h.mono n e, by simp, ?_⟩
      intro a ha b hb
      simp only [List.mem_singleton] at hb
      subst hb
      exact hclock _ (h.times n e a ha)
    · exact h.mono n e
  · intro n e x hx
    rw [hlog] at hx
    split at hx
    · rcases List.mem_append.1 hx with hx | hx
      · exact fs_times_mono _ _ (h.times n e x hx)
      · simp only [List.mem_singleton] at hx
        subst hx
        rw [fs_times_snoc]
        exact List.mem_append_right _ (by simp)
    · exact fs_times_mono _ _ (h.times n e x hx)
  · intro e hd hh
    have hh := fs_evict_sub _ _ _ _ hh
    rw [mget_mset] at hh
    rw [fs_given_snoc]
    split at hh
    · simp only [Option.some.injEq] at hh
      subst hh
      refine ⟨?_, Or.inl hget⟩
      rw [fs_times_snoc]
      exact List.mem_append_right _ (by simp)
    · obtain ⟨h1, h2⟩ := h.handle e hd hh
      refine ⟨fs_times_mono _ _ h1, ?_⟩
      rcases h2 with h2 | h2
      · exact Or.inl (hext _ _ h2)
      · exact Or.inr h2

theorem fs_rename_inv {D : Nat} {ops : List (FsOp M)} {st : FsSt M} {tr : List (FsOp M × Bool)}
    (h : FsInv D ops st tr) (old new : Str) (ho : FsName old) (hn : FsName new) :
    FsInv D (ops ++ [.rename old new]) (fsRenameNetwork st old new).1
      (tr ++ [(.rename old new, (fsRenameNetwork st old new).2)]) := by
  cases hok : (fsRenameNetwork st old new).2 with
  | false =>
    rw [fs_rename_fail hok]
    have hl : logsOf (tr ++ [(FsOp.rename old new, false)]) = logsOf tr := by rw [fs_logs_snoc]; rfl
    refine ⟨h.disk, by rw [hl]; exact h.plain, by rw [hl]; exact h.node, by rw [hl]; exact h.mono, ?_, h.fkeys, ?_⟩
    · rw [hl]; exact fun n e x hx => fs_times_mono _ _ (h.times n e x hx)
    · intro e hd hh
      rw [fs_given_snoc]
      exact ⟨fs_times_mono _ _ (h.handle e hd hh).1, (h.handle e hd hh).2⟩
  | true =>
    have h1 := fs_rename_ok h.disk hok
    obtain ⟨h2, h3, h4, h5, h6, -⟩ := fs_rename_get hok
    rw [fs_escape_id ho, fs_escape_id hn] at *
    have hl : ∀ n e, logsOf (tr ++ [(FsOp.rename old new, true)]) n e
        = if n = new then logsOf tr old e else if n = old then [] else logsOf tr n e := by
      intro n e; rw [fs_logs_snoc]; rfl
    refine ⟨h1, ?_, ?_, ?_, ?_, by rw [h2]; exact h.fkeys, ?_⟩
    · intro n e hne
      rw [hl] at hne
      split at hne
      · rename_i hx; subst hx; exact ⟨hn, (h.plain old e hne).2⟩
      · split at hne
        · simp at hne
        · exact h.plain n e hne
    · intro n e d
      have hx : fsNodeAt (fsRenameNetwork st old new).1.disk ⟨n, e, d⟩
          = if n = new then fsNodeAt st.disk ⟨old, e, d⟩ else if n = old then none else fsNodeAt st.disk ⟨n, e, d⟩ := by
        unfold fsNodeAt
        rw [h5, h6]
        (repeat' split) <;> rfl
      rw [hl, hx]
      split
      · exact h.node old e d
      · split
        · rfl
        · exact h.node n e d
    · intro n e
      rw [hl]
      split
      · exact h.mono old e
      · split
        · exact List.Pairwise.nil
        · exact h.mono n e
    · intro n e x hx
      rw [hl] at hx
      split at hx
      · exact fs_times_mono _ _ (h.times old e x hx)
      · split at hx
        · simp at hx
        · exact fs_times_mono _ _ (h.times n e x hx)
    · intro e hd hh
      rw [h2] at hh
      obtain ⟨g1, g2⟩ := h.handle e hd hh
      refine ⟨fs_times_mono _ _ g1, ?_⟩
      rw [fs_given_snoc, h5]
      simp only [givenStep, List.mem_cons]
      rcases g2 with g2 | g2
      · by_cases ho' : hd.path.net = old
        · exact Or.inr (Or.inl ho')
        · have hn' : hd.path.net ≠ new := h4 (hd.path, hd.node) (mget_some_mem g2)
          rw [if_neg hn', if_neg ho']
          exact Or.inl g2
      · exact Or.inr (Or.inr g2)

/-- The invariant holds after every history; no message is lost. -/
theorem fs_inv {D : Nat} {srt : List (Str × FsHandle) → List (Str × FsHandle)} (hs : LruSort srt)
    (ops : List (FsOp M)) (hnames : ∀ op ∈ ops, FsNamesOK op) (hclock : FsClock ops)
    (hre : NoReuse (fsExec D srt ops).2) :
    FsInv D ops (fsExec D srt ops).1 (fsExec D srt ops).2 ∧
      ∀ net ent l now ok, (FsOp.append net ent l now, ok) ∈ (fsExec D srt ops).2 → ok = true := by
  induction ops using snocInd with
  | nil =>
    refine ⟨⟨⟨by simp [fsExec], ?_, ?_⟩, ?_, ?_, ?_, ?_, by simp [fsExec], ?_⟩, ?_⟩
    · intro p q i hp; simp [fsExec, GoMap.get] at hp
    · intro p i hp; simp [fsExec, GoMap.get] at hp
    · intro n e hne; simp [fsExec, logsOf] at hne
    · intro n e d; rfl
    · intro n e; exact List.Pairwise.nil
    · intro n e x hx; simp [fsExec, logsOf] at hx
    · intro e hd hh; simp [fsExec, GoMap.get] at hh
    · intro net ent l now ok hm; simp [fsExec] at hm
  | snoc ops op ih =>
    rw [fs_exec_snoc] at hre ⊢
    simp only at hre ⊢
    have hc : FsClock ops := by
      unfold FsClock at hclock ⊢
      rw [fs_times_snoc] at hclock
      exact ⟨(List.pairwise_append.1 hclock.1).1, fun t ht => hclock.2 t (List.mem_append_left _ ht)⟩
    obtain ⟨I, J⟩ := ih (fun o ho => hnames o (List.mem_append_left _ ho)) hc (by
      intro a net ent l now ok b hab
      refine hre a net ent l now ok (b ++ [(op, (fsStep D srt (fsExec D srt ops).1 op).2)]) ?_
      rw [hab]; simp)
    have hno := hnames op (by simp)
    cases op with
    | append net ent l now =>
      have hlt : ∀ t ∈ fsTimes ops, t < now := by
        have := hclock.1
        rw [fs_times_snoc, List.pairwise_append] at this
        exact fun t ht => this.2.2 t ht now (by simp)
      obtain ⟨k1, k2⟩ := fs_append_inv hs I net ent l now hno.1 hno.2 hlt
        (hre (fsExec D srt ops).2 net ent l now _ [] rfl)
      simp only [fsStep, k1]
      refine ⟨k2, ?_⟩
      intro n e l' now' ok hm
      rcases List.mem_append.1 hm with hm | hm
      · exact J n e l' now' ok hm
      · simp only [List.mem_singleton, Prod.mk.injEq] at hm; exact hm.2
    | rename old new =>
      refine ⟨fs_rename_inv I old new hno.1 hno.2, ?_⟩
      intro n e l' now' ok hm
      rcases List.mem_append.1 hm with hm | hm
      · exact J n e l' now' ok hm
      · simp at hm
    | restart =>
      have hl : logsOf ((fsExec D srt ops).2 ++ [(FsOp.restart, true)]) = logsOf (fsExec D srt ops).2 := by
        rw [fs_logs_snoc]; rfl
      refine ⟨⟨I.disk, by simp only [fsStep, hl]; exact I.plain, by simp only [fsStep, hl]; exact I.node,
        by simp only [fsStep, hl]; exact I.mono, ?_, by simp [fsStep], ?_⟩, ?_⟩
      · simp only [fsStep, hl]
        exact fun n e x hx => fs_times_mono _ _ (I.times n e x hx)
      · intro e hd hh; simp [fsStep, GoMap.get] at hh
      · intro n e l' now' ok hm
        rcases List.mem_append.1 hm with hm | hm
        · exact J n e l' now' ok hm
        · simp at hm

/-- The files of a conversation hold the lines of its log, by day. -/
theorem fs_files {D : Nat} {ops : List (FsOp M)} {st : FsSt M} {tr : List (FsOp M × Bool)} (h : FsInv D ops st tr)
    (net ent : Str) (hn : FsName net) (he : FsName ent) (d : Nat) :
    fsFilesOf st.disk net ent d = (fsOnDay D (logsOf tr net ent) d).map (·.1) := by
  have := h.node net ent d
  unfold fsFilesOf
  rw [fs_escape_id hn, fs_escape_id he]
  unfold fsNodeAt at this
  split
  · rename_i hg; rw [hg] at this; have this : fsOnDay D (logsOf tr net ent) d = [] := this; rw [this]; rfl
  · rename_i i hg
    rw [hg] at this
    simp only [Option.bind_some] at this
    split
    · rename_i hx; rw [hx] at this; have this : fsOnDay D (logsOf tr net ent) d = [] := this; rw [this]; rfl
    · rename_i n hx; rw [hx] at this; exact this.1

/-! ## Conversations -/

/-- The newest modification time among some entries. -/
theorem fs_newest (nodes : List (FsNode M)) (es : List (FsPath × Nat)) (t0 : Nat) (r : Nat)
    (hr : r = es.foldl (fun t e => match nodes[e.2]? with
      | none => t
      | some n => if n.mtime > t then n.mtime else t) t0) :
    t0 ≤ r ∧ (r = t0 ∨ ∃ e ∈ es, ∃ n, nodes[e.2]? = some n ∧ n.mtime = r) ∧
      ∀ e ∈ es, ∀ n, nodes[e.2]? = some n → n.mtime ≤ r := by
  induction es generalizing t0 with
  | nil => subst hr; simp
  | cons e es ih =>
    simp only [List.foldl_cons] at hr
    obtain ⟨h1, h2, h3⟩ := ih _ hr
    cases hn : nodes[e.2]? with
    | none =>
      simp only [hn] at h1 h2
      refine ⟨h1, ?_, ?_⟩
      · rcases h2 with h2 | ⟨x, hx, hy⟩
        · exact Or.inl h2
        · exact Or.inr ⟨x, List.mem_cons_of_mem _ hx, hy⟩
      · intro x hx n hxn
        rcases List.mem_cons.1 hx with rfl | hx
        · rw [hn] at hxn; simp at hxn
        · exact h3 x hx n hxn
    | some n =>
      simp only [hn] at h1 h2
      refine ⟨by split at h1 <;> omega, ?_, ?_⟩
      · rcases h2 with h2 | ⟨x, hx, hy⟩
        · split at h2
          · exact Or.inr ⟨e, by simp, n, hn, h2.symm⟩
          · exact Or.inl h2
        · exact Or.inr ⟨x, List.mem_cons_of_mem _ hx, hy⟩
      · intro x hx n' hxn
        rcases List.mem_cons.1 hx with rfl | hx
        · rw [hn] at hxn
          simp only [Option.some.injEq] at hxn
          subst hxn
          split at h1 <;> omega
        · exact h3 x hx n' hxn

theorem fs_mem_paths {disk : FsDisk M} (h : FsDiskOK disk) (e : FsPath × Nat) :
    e ∈ disk.paths ↔ disk.paths.get e.1 = some e.2 :=
  ⟨fun hm => mget_of_mem h.keys hm, fun hg => mget_some_mem hg⟩

/-- The directory of a network has an entry for a name exactly when the log of that conversation is not
empty. -/
theorem fs_mem_dirs {D : Nat} {ops : List (FsOp M)} {st : FsSt M} {tr : List (FsOp M × Bool)}
    (h : FsInv D ops st tr) (net ent : Str) :
    ent ∈ fsTargetDirs st.disk net ↔ logsOf tr net ent ≠ [] := by
  unfold fsTargetDirs
  rw [List.mem_eraseDups, List.mem_map]
  constructor
  · rintro ⟨⟨⟨n, e, d⟩, i⟩, he, rfl⟩
    obtain ⟨he', hn⟩ := List.mem_filter.1 he
    have hn : n = net := by simpa using hn
    subst hn
    have hg := (fs_mem_paths h.disk _).1 he'
    have hs := (fs_nodeAt_isSome h.disk ⟨n, e, d⟩).2 ⟨i, hg⟩
    have hnode := h.node n e d
    cases hx : fsNodeAt st.disk ⟨n, e, d⟩ with
    | none => rw [hx] at hs; simp at hs
    | some nd =>
      rw [hx] at hnode
      intro hnil
      have := hnode.2
      rw [hnil] at this
      simp [fsOnDay] at this
  · intro hne
    obtain ⟨x, hx⟩ := List.exists_mem_of_ne_nil _ hne
    have hnode := h.node net ent (x.1.time / D)
    cases hn : fsNodeAt st.disk ⟨net, ent, x.1.time / D⟩ with
    | none =>
      rw [hn] at hnode
      have hnode : fsOnDay D (logsOf tr net ent) (x.1.time / D) = [] := hnode
      have : x ∈ fsOnDay D (logsOf tr net ent) (x.1.time / D) := List.mem_filter.2 ⟨hx, by simp⟩
      rw [hnode] at this
      simp at this
    | some nd =>
      obtain ⟨i, hi⟩ := (fs_nodeAt_isSome h.disk ⟨net, ent, x.1.time / D⟩).1 (by rw [hn]; rfl)
      exact ⟨(⟨net, ent, x.1.time / D⟩, i), List.mem_filter.2 ⟨(fs_mem_paths h.disk _).2 hi, by simp⟩, rfl⟩

/-- The newest modification time of a conversation's files is the instant of the last write. -/
theorem fs_dirTime {D : Nat} {ops : List (FsOp M)} {st : FsSt M} {tr : List (FsOp M × Bool)}
    (h : FsInv D ops st tr) (net ent : Str) (w : Nat) (hw : LastWrite tr net ent w) :
    fsDirTime st.disk net ent = w := by
  obtain ⟨before, l, hl⟩ := hw
  have hle : ∀ x ∈ logsOf tr net ent, x.2 ≤ w := by
    intro x hx
    have hm := h.mono net ent
    rw [hl] at hx hm
    rcases List.mem_append.1 hx with hx | hx
    · exact Nat.le_of_lt ((List.pairwise_append.1 hm).2.2 x hx (l, w) (by simp))
    · simp only [List.mem_singleton] at hx; subst hx; exact Nat.le_refl _
  obtain ⟨-, h2, h3⟩ := fs_newest st.disk.nodes
    (st.disk.paths.filter (fun e => decide (e.1.net = net ∧ e.1.ent = ent))) 0 (fsDirTime st.disk net ent) rfl
  have hup : fsDirTime st.disk net ent ≤ w := by
    rcases h2 with h2 | ⟨e, he, n, hn, hmt⟩
    · omega
    · obtain ⟨he', hp⟩ := List.mem_filter.1 he
      obtain ⟨⟨en, ee, ed⟩, i⟩ := e
      have hp : en = net ∧ ee = ent := by simpa using hp
      obtain ⟨rfl, rfl⟩ := hp
      have hg := (fs_mem_paths h.disk _).1 he'
      have hnode := h.node en ee ed
      have hx : fsNodeAt st.disk ⟨en, ee, ed⟩ = some n := by
        unfold fsNodeAt
        rw [hg]
        exact hn
      rw [hx] at hnode
      have hm := List.mem_of_getLast? hnode.2
      obtain ⟨x, hxm, hx2⟩ := List.mem_map.1 hm
      have := hle x (List.mem_filter.1 hxm).1
      omega
  have hlow : w ≤ fsDirTime st.disk net ent := by
    have hnode := h.node net ent (l.time / D)
    have hL : fsOnDay D (logsOf tr net ent) (l.time / D) = fsOnDay D before (l.time / D) ++ [(l, w)] := by
      rw [hl]; simp [fsOnDay, List.filter_append]
    rw [hL] at hnode
    cases hn : fsNodeAt st.disk ⟨net, ent, l.time / D⟩ with
    | none =>
      rw [hn] at hnode
      have hnode : fsOnDay D before (l.time / D) ++ [(l, w)] = [] := hnode
      simp at hnode
    | some nd =>
      rw [hn] at hnode
      obtain ⟨i, hi⟩ := (fs_nodeAt_isSome h.disk ⟨net, ent, l.time / D⟩).1 (by rw [hn]; rfl)
      have hm : nd.mtime = w := by simpa using hnode.2.symm
      rw [← hm]
      refine h3 (⟨net, ent, l.time / D⟩, i) (List.mem_filter.2 ⟨(fs_mem_paths h.disk _).2 hi, by simp⟩) nd ?_
      unfold fsNodeAt at hn
      rw [hi] at hn
      exact hn
  omega

theorem fs_lastWrite_iff (tr : List (FsOp M × Bool)) (net ent : Str) :
    logsOf tr net ent ≠ [] ↔ ∃ w, LastWrite tr net ent w := by
  constructor
  · intro hne
    exact ⟨((logsOf tr net ent).getLast hne).2, (logsOf tr net ent).dropLast, ((logsOf tr net ent).getLast hne).1,
      (List.dropLast_concat_getLast hne).symm⟩
  · rintro ⟨w, b, l, hl⟩ hn
    rw [hl] at hn
    simp at hn

theorem fs_between_iff (t a b : Nat) : fsIsBetween t a b = true ↔ Between t a b := by
  unfold fsIsBetween Between
  split
  · rename_i x y hxy
    split at hxy <;> simp only [Prod.mk.injEq] at hxy <;> obtain ⟨rfl, rfl⟩ := hxy <;>
      simp only [Bool.and_eq_true, decide_eq_true_eq] <;> omega

theorem fs_second (w : Nat) : InSecond (fsTruncSecond w) w := by
  unfold InSecond fsTruncSecond; omega

theorem fs_second_unique {t t' w : Nat} (h : InSecond t w) (h' : InSecond t' w) : t = t' := by
  unfold InSecond at h h'; omega

theorem fs_nodup_eraseDups (n : Nat) (l : List Str) (h : l.length ≤ n) : l.eraseDups.Nodup := by
  induction n generalizing l with
  | zero =>
    have : l = [] := List.eq_nil_of_length_eq_zero (by omega)
    subst this
    simp
  | succ n ih =>
    cases l with
    | nil => simp
    | cons a l =>
      rw [List.eraseDups_cons]
      refine List.nodup_cons.2 ⟨?_, ih _ (Nat.le_trans (List.length_filter_le _ _) (by simpa using h))⟩
      rw [List.mem_eraseDups, List.mem_filter]
      simp

/-! ## Search -/

theorem fs_contains_iff (sub s : Str) : fsContains sub s = true ↔ sub <:+: s := by
  induction s with
  | nil => simp [fsContains, List.isPrefixOf_iff_prefix]
  | cons c s ih =>
    simp only [fsContains, Bool.or_eq_true, List.isPrefixOf_iff_prefix, ih, List.infix_cons_iff]

theorem fs_afterLoop_sound (ref endT limit : Nat) (sel : M → Bool) (ls : List (FsLine M)) (hist : List M) (m : M)
    (h : m ∈ fsAfterLoop ref endT limit sel ls hist) :
    m ∈ hist ∨ ∃ l ∈ ls, l.msg = some m ∧ ref < l.time ∧ l.time < endT ∧ sel m = true := by
  induction ls generalizing hist with
  | nil => exact Or.inl h
  | cons l ls ih =>
    unfold fsAfterLoop at h
    have lift : (m ∈ hist ∨ ∃ l ∈ ls, l.msg = some m ∧ ref < l.time ∧ l.time < endT ∧ sel m = true) →
        m ∈ hist ∨ ∃ x ∈ l :: ls, x.msg = some m ∧ ref < x.time ∧ x.time < endT ∧ sel m = true := by
      rintro (h | ⟨x, hx, hy⟩)
      · exact Or.inl h
      · exact Or.inr ⟨x, List.mem_cons_of_mem _ hx, hy⟩
    split at h
    · exact Or.inl h
    · split at h
      · exact lift (ih _ h)
      · rename_i m' hm'
        split at h
        · exact lift (ih _ h)
        · rename_i h1
          split at h
          · exact Or.inl h
          · rename_i h2
            split at h
            · rename_i h3
              rcases ih _ h with h | h
              · rcases List.mem_append.1 h with h | h
                · exact Or.inl h
                · simp only [List.mem_singleton] at h
                  subst h
                  exact Or.inr ⟨l, by simp, hm', by omega, by omega, h3⟩
              · exact lift (Or.inr h)
            · exact lift (ih _ h)

theorem fs_afterDays_sound (D : Nat) (hD : 0 < D) (files : FsFiles M) (endT : Nat) (sel : M → Bool) (fuel start remaining tries : Nat)
    (m : M) (h : m ∈ fsAfterDays D files endT sel fuel start remaining tries) :
    ∃ d, ∃ l ∈ files d, l.msg = some m ∧ start < l.time ∧ l.time < endT ∧ sel m = true := by
  induction fuel generalizing start remaining tries with
  | zero => simp [fsAfterDays] at h
  | succ fuel ih =>
    unfold fsAfterDays at h
    split at h
    · rcases List.mem_append.1 h with h | h
      · rcases fs_afterLoop_sound _ _ _ _ _ _ _ h with h | ⟨l, hl, hx⟩
        · simp at h
        · exact ⟨_, l, hl, hx⟩
      · obtain ⟨d, l, hl, hm, h1, h2⟩ := ih _ _ _ h
        have : start < (start / D + 1) * D := by
          have := Nat.div_add_mod start D
          have := Nat.mod_lt start hD
          rw [Nat.add_mul, Nat.mul_comm (start / D) D]
          omega
        exact ⟨d, l, hl, hm, by omega, h2⟩
    · simp at h

theorem fs_afterLoop_length (ref endT limit : Nat) (sel : M → Bool) (ls : List (FsLine M)) (hist : List M)
    (h : hist.length ≤ limit) : (fsAfterLoop ref endT limit sel ls hist).length ≤ limit := by
  induction ls generalizing hist with
  | nil => exact h
  | cons l ls ih =>
    unfold fsAfterLoop
    split
    · exact h
    · rename_i h0
      split
      · exact ih _ h
      · split
        · exact ih _ h
        · split
          · exact h
          · split
            · exact ih _ (by simp; omega)
            · exact ih _ h

theorem fs_afterDays_length (D : Nat) (files : FsFiles M) (endT : Nat) (sel : M → Bool) (fuel start remaining tries : Nat) :
    (fsAfterDays D files endT sel fuel start remaining tries).length ≤ remaining := by
  induction fuel generalizing start remaining tries with
  | zero => simp [fsAfterDays]
  | succ fuel ih =>
    unfold fsAfterDays
    split
    · have h1 : (fsParseAfter D files start endT remaining sel).length ≤ remaining :=
        fs_afterLoop_length _ _ _ _ _ _ (by simp)
      have h2 := ih ((start / D + 1) * D) (remaining - (fsParseAfter D files start endT remaining sel).length)
        (if (fsParseAfter D files start endT remaining sel).length = 0 then tries + 1 else 0)
      simp only [List.length_append]
      omega
    · simp

/-! ## Sorting by insertion -/

/-- Insert an element before the first one that is not less than it. -/
def fsIns {α : Type} (less : α → α → Bool) (x : α) : List α → List α
  | [] => [x]
  | y :: ys => if less y x then y :: fsIns less x ys else x :: y :: ys

/-- Insertion sort. -/
def fsInsSort {α : Type} (less : α → α → Bool) (l : List α) : List α := l.foldr (fsIns less) []

theorem fs_ins_perm {α : Type} (less : α → α → Bool) (x : α) (l : List α) : (fsIns less x l).Perm (x :: l) := by
  induction l with
  | nil => exact List.Perm.refl _
  | cons y ys ih =>
    unfold fsIns
    split
    · exact (ih.cons y).trans (List.Perm.swap x y ys)
    · exact List.Perm.refl _

theorem fs_ins_sort_perm {α : Type} (less : α → α → Bool) (l : List α) : (fsInsSort less l).Perm l := by
  induction l with
  | nil => exact List.Perm.refl _
  | cons x l ih => exact (fs_ins_perm less x _).trans (ih.cons x)

theorem fs_ins_sorted {α : Type} (less less' : α → α → Bool) (hw : StrictWeak less') (x : α) (l : List α)
    (hx : ∀ y ∈ l, less y x = less' y x) (hl : l.Pairwise (fun a b => less' b a = false)) :
    (fsIns less x l).Pairwise (fun a b => less' b a = false) := by
  induction l with
  | nil => simp [fsIns]
  | cons y ys ih =>
    obtain ⟨h1, h2⟩ := List.pairwise_cons.1 hl
    unfold fsIns
    have hyx := hx y (by simp)
    split
    · rename_i hlt
      refine List.pairwise_cons.2 ⟨?_, ih (fun z hz => hx z (List.mem_cons_of_mem _ hz)) h2⟩
      intro z hz
      rcases List.mem_cons.1 ((fs_ins_perm less x ys).mem_iff.1 hz) with rfl | hz
      · rw [hyx] at hlt
        cases hc : less' z y with
        | false => rfl
        | true =>
          have := hw.2.1 y z y hlt hc
          rw [hw.1] at this
          simp at this
      · exact h1 z hz
    · rename_i hlt
      rw [hyx] at hlt
      have hlt : less' y x = false := by simpa using hlt
      refine List.pairwise_cons.2 ⟨?_, hl⟩
      intro z hz
      rcases List.mem_cons.1 hz with rfl | hz
      · exact hlt
      · exact hw.2.2 z y x (h1 z hz) hlt

theorem fs_ins_sort {α : Type} : SliceSort (α := α) fsInsSort := by
  intro less l
  refine ⟨fs_ins_sort_perm less l, ?_⟩
  intro less' hw hag
  induction l with
  | nil => exact List.Pairwise.nil
  | cons x l ih =>
    obtain ⟨h1, h2⟩ := List.pairwise_cons.1 hag
    exact fs_ins_sorted less less' hw x _
      (fun y hy => (h1 y ((fs_ins_sort_perm less l).mem_iff.1 hy)).2) (ih h2)

theorem fs_lru_sort : LruSort (fsInsSort (fun a b => decide (a.2.lastUse < b.2.lastUse))) := by
  intro l
  refine ⟨fs_ins_sort_perm _ l, ?_⟩
  have h := (fs_ins_sort (fun a b : Str × FsHandle => decide (a.2.lastUse < b.2.lastUse)) l).2
    (fun a b => decide (a.2.lastUse < b.2.lastUse)) ⟨by simp, by simp; intros; omega, by simp; intros; omega⟩
    (List.pairwise_of_forall (by simp))
  exact h.imp (fun hab => by simpa using hab)

end Verif.Proof
